import Verif.Props.ClientLog
import Verif.Props.DecodeLog
import Verif.Props.EncodeLog
import Verif.Spec.ClientOutput

/-! # C122: what the tunnelling program prints -/

namespace Knx
open Spec

/-- Encoding and sending. -/
theorem printed_encode (m : InMsg) {c : PrintedClient} (hc : Counted c.client.state) :
    PrintedClient.encodeAndSend m c = ((Client.encodeAndSend m c.client).1,
      ⟨(Client.encodeAndSend m c.client).2, c.lines ++ shownLines (encodedLines (encodeMsg m c.client.state).1)⟩) := by
  unfold PrintedClient.encodeAndSend PrintedClient.onState Client.encodeAndSend Client.onState
  simp only [Py.bind]
  rw [c121_log m (c := ⟨c.client.state, []⟩) hc.1 hc.2]
  rcases encodeMsg m c.client.state with ⟨e | f, s⟩
  · rfl
  · rfl

/-- A line of the client itself. -/
theorem own_line (e : LoggedClient.Event) (c : Client) (l : List (LogLevel × List Char)) {v : Display} {t : List Char}
    (ht : linesFor v.floats v.order c e = [t]) (hd : decoderLines v c e = []) (he : encoderLines v c e = []) :
    l ++ [(ownLevel e, t)] = l ++ outputFor v c e := by
  unfold outputFor
  rw [ht, hd, he]
  rfl

/-- Handling a message that is no request. -/
theorem printed_other (v : Display) {m : OutMsg} (h : ∀ q st, m ≠ .tunnelingReq q st) (c : PrintedClient) :
    PrintedClient.handle v m c = ((Client.handle m c.client).1, ⟨(Client.handle m c.client).2, c.lines⟩) := by
  cases m with
  | tunnelingReq q st => exact absurd rfl (h q st)
  | connectRes =>
    simp only [PrintedClient.handle, Client.handle, PrintedClient.encodeAndSend, Client.encodeAndSend, PrintedClient.onState, Client.onState,
      PrintedClient.silent, Py.bind, Py.modify, encodeMsgLog, encodeMsg, List.map_nil, List.append_nil]
    rcases channelReqEncode _ _ _ _ with e | f
    · rfl
    · simp only
      generalize Client.send f _ = y
      rcases y with ⟨e | u, d⟩ <;> rfl
  | _ => rfl

theorem printed_others (v : Display) {l : List OutMsg} (h : ∀ q st, OutMsg.tunnelingReq q st ∉ l) (c : PrintedClient) :
    Py.forEach l (PrintedClient.handle v) c =
      ((Py.forEach l Client.handle c.client).1, ⟨(Py.forEach l Client.handle c.client).2, c.lines⟩) := by
  induction l generalizing c with
  | nil => rfl
  | cons m l ih =>
    have ih := fun c => ih (fun q st hx => h q st (List.mem_cons_of_mem _ hx)) c
    simp only [Py.forEach, Py.bind]
    rw [printed_other v (fun q st hx => h q st (hx ▸ List.mem_cons_self ..))]
    rcases Client.handle m c.client with ⟨e | u, d⟩
    · rfl
    · simp only
      rw [ih]

/-- Acknowledging a request. -/
theorem printed_ack {s : State} (hr : s.seqRemote < 256) (seq : Nat) :
    shownLines (encodedLines (encodeMsg (.tunnelingAck seq .noError) s).1) = if s.chan ≠ none then [ackLine s.seqRemote] else [] := by
  show shownLines (encodedLines (tunnelingAckEncode seq .noError s).1) = _
  unfold tunnelingAckEncode connectionHeader
  cases s.chan with
  | none => rfl
  | some ch =>
    have h : shownLines (encodedLines (.ok (ipHeaderEncode (shortOctets 0x0421 ++ shortOctets (4 + 6) ++
        [octetOf 4, octetOf ch, octetOf s.seqRemote, octetOf ErrorCode.noError.toNat])))) =
        [ackLine (octetOf (s.seqRemote : Int)).toNat] := rfl
    simp only
    rw [h, counter_octet hr]
    rfl

theorem printed_datagram {v : Display} (ho : OrderOk v.order) (d : Msg) {c : PrintedClient} (hc : Counted c.client.state)
    (hm : c.client.state.medium = .knxnetIp) :
    PrintedClient.step v c (.datagram d) =
      ⟨Client.step c.client (.datagram d), c.lines ++ outputFor v c.client (.datagram d)⟩ := by
  have e1 : PrintedClient.step v c (.datagram d) = (match decodeMsg d c.client.state with
      | (.error e, s) => ((.error e : Except Err Unit),
          (⟨{ c.client with state := s }, c.lines ++ shownLines (frameLines v c.client.state d)⟩ : PrintedClient))
      | (.ok r, s) => PrintedClient.handleAll v r
          ⟨{ c.client with state := s, decoded := c.client.decoded ++ Client.messages r },
            c.lines ++ shownLines (frameLines v c.client.state d)⟩).2 := by
    show (PrintedClient.datagramReceived v d c).2 = _
    unfold PrintedClient.datagramReceived
    simp only [Py.bind, Py.lift, c01_lower_parse, PrintedClient.silent, PrintedClient.onState]
    rw [c119_log ho]
    rcases decodeMsg d c.client.state with ⟨e | r, s⟩
    · rfl
    · rfl
  have e2 : Client.step c.client (.datagram d) = (Client.datagramReceived d c.client).2 := rfl
  rw [e1, e2, datagram_eq]
  unfold outputFor decoderLines
  rcases hx : decodeMsg d c.client.state with ⟨e | r, s⟩
  · have hx1 : (decodeMsg d c.client.state).1 = .error e := by rw [hx]
    have hl : linesFor v.floats v.order c.client (.datagram d) = [] := by
      simp only [linesFor, hx1]
      cases requestCounter d <;> rfl
    have he : encoderLines v c.client (.datagram d) = [] := by
      simp only [encoderLines, hx1]
      cases requestCounter d <;> rfl
    rw [hl, he]
    simp
  · have hx1 : (decodeMsg d c.client.state).1 = .ok r := by rw [hx]
    cases hq : requestCounter d with
    | none =>
      have hp := request_place hm hx1 hq
      have hl : linesFor v.floats v.order c.client (.datagram d) = [] := by
        simp only [linesFor, hq]
      have he : encoderLines v c.client (.datagram d) = [] := by
        simp only [encoderLines, hq]
      rw [hl, he]
      simp only [List.map_nil, List.append_nil]
      cases r with
      | list l => exact congrArg Prod.snd (printed_others v hp _)
      | none => rfl
      | tuple l => rfl
    | some q =>
      obtain ⟨l1, l2, x, chan, k, st, m, rfl, rfl⟩ := request_form hq
      obtain ⟨l, hl, rfl⟩ := decode_tunnel_ok hm l1 l2 x chan k st m hx1
      obtain ⟨s', hs', hch, hsr, hsl⟩ := decode_tunnel hm l1 l2 x chan k st m
      rw [hx] at hs'
      replace hs' : s = s' := hs'
      subst hs'
      obtain ⟨t, ht, hline⟩ := request_text v.floats v.order k.toNat (requestStatus c.client.state.seqRemote k.toNat)
      have hn : ∀ q st, OutMsg.tunnelingReq q st ∉ l := fun q st hmem => by cases hl _ hmem
      have hs : linesFor v.floats v.order c.client (.datagram (tunnelDatagram l1 l2 x chan k st m)) = ["read ".toList ++ t] := by
        simp only [linesFor, hq, hx1, hline]
      have he : encoderLines v c.client (.datagram (tunnelDatagram l1 l2 x chan k st m)) = ackLines c.client.state k.toNat := by
        simp only [encoderLines, hq, hx1]
      rw [hs, he]
      unfold ackLines
      rw [show (if c.client.state.seqRemote = k.toNat ∨ c.client.state.seqRemote = k.toNat + 1 then ErrorCode.noError
        else ErrorCode.sequenceNumber) = requestStatus c.client.state.seqRemote k.toNat from rfl]
      generalize requestStatus c.client.state.seqRemote k.toNat = ec at *
      have key : ∀ d : PrintedClient, Counted d.client.state → d.client.state.chan = c.client.state.chan →
          d.client.state.seqRemote = c.client.state.seqRemote →
          PrintedClient.handleAll v (.list (.tunnelingReq k.toNat ec :: l)) d =
          ((Client.handleAll (.list (.tunnelingReq k.toNat ec :: l)) d.client).1,
            ⟨(Client.handleAll (.list (.tunnelingReq k.toNat ec :: l)) d.client).2, d.lines ++ [(.info, "read ".toList ++ t)] ++
              if ec = .noError ∧ c.client.state.chan ≠ none then [ackLine c.client.state.seqRemote] else []⟩) := by
        intro d hd h1 h2
        show Py.forEach (_ :: l) _ _ = ((Py.forEach (_ :: l) _ _).1, PrintedClient.mk (Py.forEach (_ :: l) _ _).2 _)
        simp only [Py.forEach, PrintedClient.handle, Py.bind, Py.lift, ht, PrintedClient.put, Py.modify, Client.handle]
        by_cases hec : ec = .noError
        · subst hec
          simp only [if_true, true_and]
          rw [printed_encode _ (c := ⟨d.client, d.lines ++ [(LogLevel.info, "read ".toList ++ t)]⟩) hd, printed_ack hd.2, h1, h2]
          rcases Client.encodeAndSend (.tunnelingAck k.toNat .noError) d.client with ⟨e | u, c'⟩
          · rfl
          · simp only
            rw [printed_others v hn]
        · simp only [hec, if_false, false_and, List.append_nil, Py.pure]
          rw [printed_others v hn]
      refine (congrArg Prod.snd (key _ ⟨hsl ▸ hc.1, hsr ▸ hc.2⟩ hch hsr)).trans ?_
      simp only [List.append_assoc, List.map_cons, List.map_nil, ownLevel]

theorem printed_write {v : Display} (ho : OrderOk v.order) (m : InMsg) {c : PrintedClient} (hc : Counted c.client.state) :
    PrintedClient.step v c (.write m) = ⟨Client.step c.client (.write m), c.lines ++ outputFor v c.client (.write m)⟩ := by
  show (PrintedClient.write v m c).2 = ⟨(Client.write m c.client).2, _⟩
  have hline : ∀ t, "write ".toList ++ fill (requestWording t m).1.toList (requestWording t m).2 = writeLine t m :=
    fun t => (log_pattern "write " _ (by decide +kernel) (by decide +kernel)).symm
  have hf : Client.formatIn m = match datapointIn m with
      | none => .ok ()
      | some d => d.repr := by cases m <;> rfl
  have sent : ∀ t, linesFor v.floats v.order c.client (.write m) = [writeLine t m] →
      ((Py.bind (Py.lift (.ok (fill (requestWording t m).1.toList (requestWording t m).2))) fun t =>
      Py.bind (PrintedClient.put .info ("write ".toList ++ t)) fun _ => PrintedClient.encodeAndSend m) c).2 =
      ⟨((Py.bind (Py.lift (.ok ())) fun _ => Client.encodeAndSend m) c.client).2, c.lines ++ outputFor v c.client (.write m)⟩ := by
    intro t ht
    simp only [Py.bind, Py.lift, PrintedClient.put, Py.modify, hline]
    rw [printed_encode m (c := ⟨c.client, c.lines ++ [(LogLevel.info, writeLine t m)]⟩) hc]
    unfold outputFor encoderLines
    simp only [ht, decoderLines, ownLevel]
    simp
  by_cases hcn : c.client.connected = true
  · unfold PrintedClient.write Client.write
    simp only [hcn, if_true]
    rw [show m.text v.floats v.order = _ from c114_sent m v.floats v.order, hf]
    cases hd : datapointIn m with
    | none => exact sent [] (by simp only [linesFor, hcn, if_true, hd])
    | some d =>
      simp only
      rcases text_repr v.floats ho d with ⟨t, h1, h2⟩ | ⟨h1, h2⟩
      · rw [h1, h2]
        exact sent t (by simp only [linesFor, hcn, if_true, hd, h1])
      · have hl : linesFor v.floats v.order c.client (.write m) = [] := by simp only [linesFor, hcn, if_true, hd, h1]
        rw [h1, h2]
        unfold outputFor encoderLines
        simp [Except.map, Py.bind, Py.lift, hl, decoderLines]
  · have hl : linesFor v.floats v.order c.client (.write m) = [] := by simp [linesFor, hcn]
    unfold PrintedClient.write Client.write outputFor encoderLines
    simp [hcn, hl, decoderLines]

/-- One event. -/
theorem printed_step {v : Display} (ho : OrderOk v.order) {c : PrintedClient} (hc : Counted c.client.state)
    (hm : c.client.state.medium = .knxnetIp) (e : LoggedClient.Event) :
    PrintedClient.step v c e = ⟨clientAfter c.client e, c.lines ++ outputFor v c.client e⟩ := by
  cases e with
  | made t =>
    have h := log_pattern "Connection made: " t (q := "Connection made: {}") (by decide +kernel) (by decide +kernel)
    rw [← own_line (.made t) c.client c.lines (v := v) (t := "Connection made: ".toList ++ t) (by simp only [linesFor, h]) rfl rfl]
    show (PrintedClient.connectionMade t c).2 = _
    simp only [PrintedClient.connectionMade, Py.bind, PrintedClient.silent, PrintedClient.put, Py.modify]
    rw [printed_encode _ (c := ⟨{ c.client with transport := true }, _⟩) hc]
    simp only [PrintedClient.mk.injEq]
    exact ⟨rfl, List.append_nil _⟩
  | lost t =>
    have h := log_pattern "Connection lost: " t (q := "Connection lost: {}") (by decide +kernel) (by decide +kernel)
    rw [← own_line (.lost t) c.client c.lines (v := v) (t := "Connection lost: ".toList ++ t) (by simp only [linesFor, h]) rfl rfl]
    rfl
  | failed t =>
    have h := log_pattern "Error received: " t (q := "Error received: {}") (by decide +kernel) (by decide +kernel)
    rw [← own_line (.failed t) c.client c.lines (v := v) (t := "Error received: ".toList ++ t) (by simp only [linesFor, h]) rfl rfl]
    rfl
  | datagram d => exact printed_datagram ho d hc hm
  | write m => exact printed_write ho m hc

/-- C122: all lines logged for the client, in order, and that logging changes nothing else. -/
theorem c122_lines {v : Display} (ho : OrderOk v.order) {c : PrintedClient} (hl : c.client.state.seqLocal < 256)
    (hr : c.client.state.seqRemote < 256) (hm : c.client.state.medium = .knxnetIp) (es : List LoggedClient.Event) :
    (PrintedClient.run v c es).lines = c.lines ++ outputOf v c.client es ∧
    (PrintedClient.run v c es).client = Client.run c.client (es.filterMap happening) := by
  have hc : Counted c.client.state := ⟨hl, hr⟩
  clear hl hr
  induction es generalizing c with
  | nil => exact ⟨(List.append_nil _).symm, rfl⟩
  | cons e es ih =>
    have h1 : PrintedClient.run v c (e :: es) = PrintedClient.run v (PrintedClient.step v c e) es := rfl
    rw [h1, printed_step ho hc hm, outputOf, List.filterMap_cons]
    have h2 : (clientAfter c.client e).state.medium = .knxnetIp ∧ Counted (clientAfter c.client e).state := by
      unfold clientAfter
      cases happening e with
      | none => exact ⟨hm, hc⟩
      | some e' =>
        obtain ⟨_, -, h, -⟩ := traces_step ⟨c.client, []⟩ hc e'
        exact ⟨medium_step hm e', h⟩
    obtain ⟨h3, h4⟩ := ih (c := ⟨clientAfter c.client e, c.lines ++ outputFor v c.client e⟩) h2.1 h2.2
    refine ⟨by rw [h3, List.append_assoc], h4.trans ?_⟩
    unfold clientAfter
    cases happening e with
    | none => rfl
    | some e' => rfl

/-! ## Consequences -/

theorem printed_more (c : Client) (l l' : List (LogLevel × List Char)) :
    PrintedClient.printed ⟨c, l ++ l'⟩ = PrintedClient.printed ⟨c, l⟩ ++ (l'.filter fun x => x.1 ≠ .debug).map Prod.snd := by
  simp [PrintedClient.printed]

theorem printed_client (c d : Client) (l : List (LogLevel × List Char)) :
    PrintedClient.printed ⟨c, l⟩ = PrintedClient.printed ⟨d, l⟩ := rfl

theorem tunnel_lines {s : State} (hm : s.medium = .knxnetIp) (v : Display) (l1 l2 x chan q st : Byte) (m : Msg) :
    frameLines v s (tunnelDatagram l1 l2 x chan q st m) = ⟨"knxnet_ip.tunneling.req", .debug, counterText q.toNat⟩ ::
      (if s.seqRemote = q.toNat then
        cemiLines v s.assoc (telegramMessages (decodeMsg (tunnelDatagram l1 l2 x chan q st m) s).1) m else []) := by
  unfold frameLines
  rw [hm]
  rfl

/-- The lines about a telegram, from the cEMI message. -/
theorem cemi_telegram {x : Msg} {confirmation : Bool} {t : Telegram} (h : HasTelegram x confirmation t) (v : Display)
    (a : Option AssocTable) (r : Option (List OutMsg)) : cemiLines v a r x = telegramLines v confirmation a r t := by
  obtain ⟨n, rest, rfl, h2⟩ := h
  unfold cemiLines
  cases confirmation <;> simp [h2]

/-- The texts of the lines of level INFO and above. -/
theorem printed_request {v : Display} (ho : OrderOk v.order) {c : PrintedClient} (hl : c.client.state.seqLocal < 256)
    (hr : c.client.state.seqRemote < 256) (hm : c.client.state.medium = .knxnetIp) (l1 l2 x chan q st : Byte) (m : Msg) {r : Res}
    (hd : (decodeMsg (tunnelDatagram l1 l2 x chan q st m) c.client.state).1 = .ok r) :
    (PrintedClient.step v c (.datagram (tunnelDatagram l1 l2 x chan q st m))).printed = c.printed ++
      (((shownLines (if c.client.state.seqRemote = q.toNat then
          cemiLines v c.client.state.assoc (telegramMessages (.ok r)) m else [])).filter fun l => l.1 ≠ .debug).map Prod.snd ++
        readLine q.toNat (requestStatus c.client.state.seqRemote q.toNat) ::
          (ackLines c.client.state q.toNat).map Prod.snd) := by
  have hq : requestCounter (tunnelDatagram l1 l2 x chan q st m) = some q.toNat := rfl
  have ha : ((ackLines c.client.state q.toNat).filter fun l => l.1 ≠ .debug) = ackLines c.client.state q.toNat := by
    unfold ackLines
    split <;> rfl
  rw [printed_datagram ho _ ⟨hl, hr⟩ hm, printed_more, printed_client _ c.client]
  unfold outputFor decoderLines encoderLines
  simp only [linesFor, hq, hd]
  rw [tunnel_lines hm, hd]
  simp only [shownLines, List.map_cons, List.filter_append, List.map_append, ha]
  congr 1
  simp [ownLevel]

/-- C122: a telegram for others is printed, addresses and octets, before the request and the acknowledgement. -/
theorem c122_discarded {v : Display} (ho : OrderOk v.order) {c : PrintedClient} {a : AssocTable} (hl : c.client.state.seqLocal < 256)
    (hm : c.client.state.medium = .knxnetIp) (hc : c.client.state.chan ≠ none) (ha : c.client.state.assoc = some a)
    (l1 l2 x chan q st : Byte) (hq : c.client.state.seqRemote = q.toNat) {m : Msg} {r : Res} {confirmation : Bool} {t : Telegram}
    (ht : HasTelegram m confirmation t) (h4 : t.tpci.toNat < 4) (h0 : 128 ≤ t.ctrl2.toNat → t.destination ≠ 0)
    (hf : forOthers a (128 ≤ t.ctrl2.toNat) confirmation t.source t.destination)
    (hd : (decodeMsg (tunnelDatagram l1 l2 x chan q st m) c.client.state).1 = .ok r) :
    (PrintedClient.step v c (.datagram (tunnelDatagram l1 l2 x chan q st m))).printed = c.printed ++
      [fill "discarded msg {} source: {} (0x{}), destination: {} (0x{}), address_type: {}".toList
          (payloadWord t :: addressFields v.named (128 ≤ t.ctrl2.toNat) t.source t.destination),
        readLine q.toNat .noError,
        fill "knxnet_ip.tunneling.encode.ack with sequence counter={}".toList [natWord q.toNat]] := by
  rw [printed_request ho hl (by rw [hq]; exact q.isLt) hm l1 l2 x chan q st m hd, if_pos hq, cemi_telegram ht, ha]
  have h1 : ¬ (4 ≤ t.tpci.toNat ∨ decide (128 ≤ t.ctrl2.toNat) = true ∧ t.destination = 0) := by
    rintro (h | ⟨h, h'⟩)
    · omega
    · exact h0 (of_decide_eq_true h) h'
  have h2 : requestStatus c.client.state.seqRemote q.toNat = .noError := by
    unfold requestStatus
    rw [if_pos (.inl hq)]
  unfold telegramLines ackLines
  simp only [if_neg h1]
  rw [if_pos hf, h2, if_pos ⟨rfl, hc⟩, hq]
  rfl

/-- C122 fails for all other telegrams: nothing that is printed tells one from another that is for this device, whatever they carry
and whatever is delivered. -/
theorem c122_value_refuted {v : Display} (ho : OrderOk v.order) {c : PrintedClient} {a : AssocTable}
    (hl : c.client.state.seqLocal < 256) (hr : c.client.state.seqRemote < 256) (hm : c.client.state.medium = .knxnetIp)
    (ha : c.client.state.assoc = some a) (l1 l2 x chan q st l1' l2' x' chan' st' : Byte) {m m' : Msg} {r r' : Res} {k k' : Bool}
    {t t' : Telegram} (ht : HasTelegram m k t) (ht' : HasTelegram m' k' t')
    (hf : ¬ forOthers a (128 ≤ t.ctrl2.toNat) k t.source t.destination)
    (hf' : ¬ forOthers a (128 ≤ t'.ctrl2.toNat) k' t'.source t'.destination)
    (hd : (decodeMsg (tunnelDatagram l1 l2 x chan q st m) c.client.state).1 = .ok r)
    (hd' : (decodeMsg (tunnelDatagram l1' l2' x' chan' q st' m') c.client.state).1 = .ok r') :
    (PrintedClient.step v c (.datagram (tunnelDatagram l1 l2 x chan q st m))).printed =
      (PrintedClient.step v c (.datagram (tunnelDatagram l1' l2' x' chan' q st' m'))).printed := by
  have h : ∀ {m : Msg} {k : Bool} {t : Telegram} (r : Option (List OutMsg)), HasTelegram m k t →
      ¬ forOthers a (128 ≤ t.ctrl2.toNat) k t.source t.destination →
      ((shownLines (if c.client.state.seqRemote = q.toNat then cemiLines v c.client.state.assoc r m else [])).filter
        fun l => l.1 ≠ .debug) = [] := by
    intro m k t r ht hf
    rw [cemi_telegram ht, ha]
    split
    · unfold telegramLines
      simp only
      rw [if_neg hf]
      cases r with
      | none => split <;> rfl
      | some ms => split <;> rfl
    · rfl
  rw [printed_request ho hl hr hm l1 l2 x chan q st m hd, printed_request ho hl hr hm l1' l2' x' chan' q st' m' hd', h _ ht hf, h _ ht' hf']

/-- C122: of a request written nothing is printed but the line of the client: that of the encoder is below INFO. -/
theorem c122_written {v : Display} (ho : OrderOk v.order) {c : PrintedClient} (hl : c.client.state.seqLocal < 256)
    (hr : c.client.state.seqRemote < 256) (hm : c.client.state.medium = .knxnetIp) {m : InMsg} (hq : isRequest m) :
    (PrintedClient.step v c (.write m)).printed = c.printed ++ linesFor v.floats v.order c.client (.write m) := by
  rw [printed_write ho m ⟨hl, hr⟩, printed_more, printed_client _ c.client]
  congr 1
  have h : ((shownLines (encodedLines (encodeMsg m c.client.state).1)).filter fun l => l.1 ≠ .debug) = [] := by
    rcases hx : (encodeMsg m c.client.state).1 with e | f
    · rfl
    · show (shownLines (sentLines f)).filter _ = []
      rw [c121_request hl hm hq hx]
      rfl
  unfold outputFor encoderLines
  simp only [decoderLines, List.nil_append, List.filter_append, List.map_append]
  have h2 : ∀ b : Prop, [Decidable b] → ((if b then [] else shownLines (encodedLines (encodeMsg m c.client.state).1)).filter
      fun l => l.1 ≠ .debug) = [] := by
    intro b _
    split
    · rfl
    · exact h
  rw [h2]
  generalize linesFor v.floats v.order c.client (.write m) = l
  have h3 : ∀ l : List (List Char), ((l.map fun t => (ownLevel (.write m), t)).filter fun x => x.1 ≠ .debug).map Prod.snd = l := by
    intro l
    induction l with
    | nil => rfl
    | cons t l ih => exact congrArg (t :: ·) ih
  rw [h3]
  simp

/-- Two requests: one for others, one for two ASAPs. -/
def exForOthers : Msg := tunnelDatagram 0 23 4 7 255 0 (cemi 0x29 [] ⟨0xBC, 0xE0, 0x110A, 0x0F12, 3, 0, 0x80, [0x0C, 0x65]⟩)

example : (PrintedClient.run exDisplay ⟨exClient, []⟩ [.datagram exForOthers]).printed =
    ["discarded msg 0C65 source: 4362 (0x110A), destination: 3858 (0x0F12), address_type: 1".toList,
      "read TunnelingReq(sequence counter=255, status=<ErrorCodes.E_NO_ERROR: 0>)".toList,
      "knxnet_ip.tunneling.encode.ack with sequence counter=255".toList] := by
  decide +kernel

/-- C122: so what was received cannot be told from what is printed. -/
theorem c122_refuted : ¬ ∀ (v : Display) (c : PrintedClient) (d d' : Msg),
    (PrintedClient.step v c (.datagram d)).printed = (PrintedClient.step v c (.datagram d')).printed →
    (PrintedClient.step v c (.datagram d)).client.decoded = (PrintedClient.step v c (.datagram d')).client.decoded := by
  intro h
  have h1 := h exDisplay ⟨exClient, []⟩ (exRequest 0x65) (exRequest 0x66) (by decide +kernel)
  revert h1
  decide +kernel

example : (PrintedClient.step exDisplay ⟨exClient, []⟩ (.datagram (exRequest 0x65))).printed =
    ["read TunnelingReq(sequence counter=255, status=<ErrorCodes.E_NO_ERROR: 0>)".toList,
      "knxnet_ip.tunneling.encode.ack with sequence counter=255".toList] := by
  decide +kernel

example : (PrintedClient.step exDisplay ⟨exClient, []⟩ (.write (.groupRead ⟨7, none⟩))).lines.length = 2 ∧
    (PrintedClient.step exDisplay ⟨exClient, []⟩ (.write (.groupRead ⟨7, none⟩))).printed.length = 1 := by
  decide +kernel

end Knx
