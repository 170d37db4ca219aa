import Verif.Props.DecodeLog
import Verif.Props.Discovery
import Verif.Props.LogTexts
import Verif.Props.StateText
import Verif.Spec.DiscoveryLog

/-! # C120: the log of the discovery -/

namespace Knx
open Spec

theorem octets_word (d : Msg) : hexLower d = octetsWord d := by
  unfold octetsWord hexLower
  rw [List.map_flatMap]
  congr 1
  funext b
  revert b
  decide +kernel

theorem discoveryLine_eq (level : LogLevel) (pattern : String) (p field : List Char) (hp : pattern.toList = p ++ ['{', '}'])
    (hf : '{' ∉ p) : clientLine level (p ++ field) = discoveryLine level pattern field := by
  unfold clientLine discoveryLine
  rw [fill_pieces pattern [field] p [[]] (by rw [hp]; rfl) (by simpa using hf) rfl]
  simp

theorem messagesWord_eq (v : Display) {name : Int → Option String} {ms : List OutMsg} (h : ∀ m ∈ ms, Proper name m) :
    (listText v.floats v.order ms).toOption = messagesWord v ms := by
  have key : ∀ {m : OutMsg}, Proper name m → messageWord v m = (m.text v.floats v.order).toOption := by
    intro m hm
    rw [c114_received hm]
    unfold messageWord
    cases datapointOf m with
    | none => rfl
    | some d =>
      simp only
      cases d.text v.floats v.order <;> rfl
  unfold messagesWord
  by_cases ha : ∃ ts, List.Forall₂ (fun m t => m.text v.floats v.order = .ok t) ms ts
  · obtain ⟨ts, hts⟩ := ha
    rw [c114_list _ _ hts]
    have : ms.mapM (messageWord v) = some ts := by
      induction hts with
      | nil => rfl
      | @cons m t ms ts hm hms ih =>
        rw [List.mapM_cons, key (h m (by simp)), hm, ih fun m hm => h m (by simp [hm])]
        rfl
    rw [this]
    rfl
  · have h1 : ms.mapM (messageWord v) = none := by
      clear * - ha key h
      induction ms with
      | nil => exact absurd ⟨[], .nil⟩ ha
      | cons m ms ih =>
        rw [List.mapM_cons, key (h m (by simp))]
        cases ht : m.text v.floats v.order with
        | error e => rfl
        | ok t =>
          rw [ih (fun m hm => h m (by simp [hm])) fun ⟨ts, hts⟩ => ha ⟨t :: ts, .cons ht hts⟩]
          rfl
    rw [h1]
    cases hl : listText v.floats v.order ms with
    | error e => rfl
    | ok x =>
      refine absurd ?_ ha
      unfold listText at hl
      split at hl
      · cases hl
      · rename_i y hy
        clear * - hy
        induction ms generalizing y with
        | nil => exact ⟨[], .nil⟩
        | cons m ms ih =>
          unfold listItems at hy
          split at hy
          · cases ‹m :: ms = []›
          · rename_i m' heq
            cases heq
            cases ht : m.text v.floats v.order with
            | error e => rw [ht] at hy; cases hy
            | ok t => exact ⟨[t], .cons ht .nil⟩
          · rename_i m' ms' _ heq
            cases heq
            cases ht : m.text v.floats v.order with
            | error e => rw [ht] at hy; cases hy
            | ok t =>
              rw [ht] at hy
              cases hi : listItems v.floats v.order ms with
              | error e => rw [hi] at hy; cases hy
              | ok z =>
                obtain ⟨ts, hts⟩ := ih _ hi
                exact ⟨t :: ts, .cons ht hts⟩

theorem resultWord_eq (v : Display) {s s' : State} (hg : OneEach s.got) {msg : Msg} {r : Res} (h : decodeMsg msg s = (.ok r, s')) :
    (responseText v s' r).toOption = resultWord v s' r := by
  have hp := c89_decoded hg h
  cases r with
  | none => rfl
  | list ms => exact messagesWord_eq v hp
  | tuple ms =>
    unfold responseText resultWord
    simp only
    have hw : (listText v.floats v.order ms).toOption = messagesWord v ms := messagesWord_eq v hp
    rw [← hw]
    cases listText v.floats v.order ms with
    | error e => rfl
    | ok t =>
      show some _ = some _
      rw [c115_state]
      generalize stateWord v.named (fun _ => false) s' = x
      show some _ = some (fill _ _)
      rw [fill_pieces "({}, {})" [t, x] ['('] [", ".toList, [')']] (by decide +kernel) (by decide +kernel) (by simp)]
      simp

/-- The listener, one event. -/
theorem listener_step {v : Display} (ho : OrderOk v.order) (c : Listener) (hg : OneEach c.inner.state.got) (e : DiscoveryEvent) :
    (Listener.step v c e).inner = ⟨listenerState c.inner.state e, c.inner.log ++ listenerLines v c.inner.state e⟩ := by
  cases e with
  | made t =>
    show LoggedState.mk _ (_ ++ [_]) = _
    rw [discoveryLine_eq .info "Connection made: {}" _ t (by decide +kernel) (by decide +kernel)]
    rfl
  | lost t =>
    show LoggedState.mk _ (_ ++ [_]) = _
    rw [discoveryLine_eq .error "Connection lost: {}" _ t (by decide +kernel) (by decide +kernel)]
    rfl
  | failed t =>
    show LoggedState.mk _ (_ ++ [_]) = _
    rw [discoveryLine_eq .error "Error received: {}" _ t (by decide +kernel) (by decide +kernel)]
    rfl
  | datagram d a =>
    show (Listener.datagramReceived v d a c).2.inner = _
    unfold Listener.datagramReceived Listener.write Listener.within LoggedState.write Py.bind Py.lift Py.modify
    simp only [c01_lower_parse, c119_log ho]
    rw [octets_word]
    rw [discoveryLine_eq .info "read    {}" _ _ (by decide +kernel) (by decide +kernel),
      discoveryLine_eq .info "read    {}" _ a (by decide +kernel) (by decide +kernel)]
    unfold listenerState listenerLines decodedLines
    rcases hd : decodeMsg d c.inner.state with ⟨e | r, s'⟩
    · simp only [hd]
      simp
    · simp only [hd]
      rw [← resultWord_eq v hg hd]
      cases responseText v s' r with
      | error e => simp [Except.toOption]
      | ok t =>
        simp only [Except.toOption, Option.map_some, Option.toList_some]
        rw [discoveryLine_eq .info "read decoded: {}" _ t (by decide +kernel) (by decide +kernel)]
        simp

theorem listener_got (s : State) (e : DiscoveryEvent) : (listenerState s e).got = s.got := by
  cases e with
  | datagram d a => exact (c33_tables d s).2.2
  | made | lost | failed => rfl

/-- C120, the listener: the lines exactly, for all events from all states; logging has no effect on its state. -/
theorem c120_listener {v : Display} (ho : OrderOk v.order) (c : Listener) (hg : OneEach c.inner.state.got) (es : List DiscoveryEvent) :
    (Listener.run v c es).inner.log = c.inner.log ++ listenerLog v c.inner.state es ∧
    (Listener.run v c es).inner.state = es.foldl listenerState c.inner.state := by
  induction es generalizing c with
  | nil => exact ⟨(List.append_nil _).symm, rfl⟩
  | cons e es ih =>
    have h := listener_step ho c hg e
    have hi := ih (Listener.step v c e) (by rw [h]; rw [listener_got]; exact hg)
    rw [h] at hi
    rw [show Listener.run v c (e :: es) = Listener.run v (Listener.step v c e) es from rfl, listenerLog, List.foldl_cons]
    exact ⟨hi.1.trans (List.append_assoc ..), hi.2⟩

/-- The listener of the program with a response, an acknowledgement and a broken datagram. -/
example : (Listener.run exDisplay {} [.made "<transport>".toList,
      .datagram [0x06, 0x10, 0x04, 0x21, 0, 10, 4, 7, 1, 0] "('172.31.10.250', 3671)".toList,
      .datagram [0x06, 0x10, 0x05, 0x30, 0, 6] "('172.31.10.250', 3671)".toList,
      .datagram [0x06, 0x10, 0x02, 0x02] "('172.31.10.250', 3671)".toList, .lost "None".toList]).inner.log.map (fun l => (l.level, l.text)) =
    [(.info, "Connection made: <transport>".toList),
      (.info, "read    0610042100" ++ "0a04070100" |>.toList), (.info, "read    ('172.31.10.250', 3671)".toList),
      (.info, "knxnet_ip.tunneling.decode.req sequence counter=1".toList),
      (.info, "read decoded: ([TunnelingAck(sequence counter=0, status=0)],  State for Medium.knxnet_ip\n\n        None\n\n        None\n\n        LData structure (for decode functions): None\n\n        ASAP: None, APCI: None, Address Type: None\n\n        Sequence Counter (remote): 0\n\n        Sequence Counter (local): 0\n)".toList),
      (.info, "read    061005300006".toList), (.info, "read    ('172.31.10.250', 3671)".toList),
      (.error, "Unknown knxnet_ip service value 1328".toList), (.info, "read decoded: []".toList),
      (.info, "read    06100202".toList), (.info, "read    ('172.31.10.250', 3671)".toList),
      (.error, "Connection lost: None".toList)] := by
  rw [(c120_listener exOrderOk {} List.nodup_nil _).1]
  decide +kernel

theorem events_unique {σ : Type} {lines : σ → DiscoveryEvent → List LogLine} {next : σ → DiscoveryEvent → σ}
    {log : σ → List DiscoveryEvent → List LogLine} (h0 : ∀ s, log s [] = [])
    (h1 : ∀ s e es, log s (e :: es) = lines s e ++ log (next s e) es) (hn : ∀ s e, lines s e ≠ [])
    (hu : ∀ s e e' r r', lines s e ++ r = lines s e' ++ r' → e = e') {s : σ} {es es' : List DiscoveryEvent}
    (h : log s es = log s es') : es = es' := by
  induction es generalizing s es' with
  | nil =>
    cases es' with
    | nil => rfl
    | cons e es' =>
      rw [h0, h1] at h
      exact absurd (List.append_eq_nil_iff.1 h.symm).1 (hn s e)
  | cons e es ih =>
    cases es' with
    | nil =>
      rw [h0, h1] at h
      exact absurd (List.append_eq_nil_iff.1 h).1 (hn s e)
    | cons e' es' =>
      rw [h1, h1] at h
      obtain rfl := hu _ _ _ _ _ h
      rw [ih (List.append_cancel_left h)]

theorem octetsWord_inj {d d' : Msg} (h : octetsWord d = octetsWord d') : d = d' := by
  rw [← octets_word, ← octets_word] at h
  have h1 := c01_lower_parse d
  rw [h, c01_lower_parse] at h1
  injection h1 with h1
  exact h1.symm

/-- Lines with the same pattern have the same field. -/
theorem line_field {level level' : LogLevel} {pattern : String} {p field field' : List Char} (hp : pattern.toList = p ++ ['{', '}'])
    (hf : '{' ∉ p) (h : discoveryLine level pattern field = discoveryLine level' pattern field') : field = field' := by
  rw [← discoveryLine_eq level pattern p field hp hf, ← discoveryLine_eq level' pattern p field' hp hf] at h
  injection h with _ _ h
  exact List.append_cancel_left h

/-- Lines whose patterns begin with different characters differ. -/
theorem line_head {level level' : LogLevel} {pattern pattern' : String} {p p' field field' : List Char}
    (hp : pattern.toList = p ++ ['{', '}']) (hf : '{' ∉ p) (hp' : pattern'.toList = p' ++ ['{', '}']) (hf' : '{' ∉ p')
    (hh : p.head? ≠ p'.head?) (he : p ≠ []) (he' : p' ≠ []) :
    discoveryLine level pattern field ≠ discoveryLine level' pattern' field' := by
  rw [← discoveryLine_eq level pattern p field hp hf, ← discoveryLine_eq level' pattern' p' field' hp' hf']
  intro h
  injection h with _ _ h
  cases p with
  | nil => exact he rfl
  | cons a p =>
    cases p' with
    | nil => exact he' rfl
    | cons a' p' =>
      injection h with h _
      exact hh (by rw [h]; rfl)

theorem listener_lines_unique (v : Display) (s : State) (e e' : DiscoveryEvent) (r r' : List LogLine)
    (h : listenerLines v s e ++ r = listenerLines v s e' ++ r') : e = e' := by
  have hl : ∀ {level level' : LogLevel} {p p' : String} {f f' : List Char}, discoveryLine level p f = discoveryLine level' p' f' →
      level = level' := fun h => congrArg LogLine.level h
  cases e <;> cases e' <;> injection h with h1 h2
  · rw [line_field (p := "Connection made: ".toList) (by decide +kernel) (by decide +kernel) h1]
  · cases hl h1
  · cases hl h1
  · exact absurd h1 (line_head (p := "Connection made: ".toList) (p' := "read    ".toList) (by decide +kernel) (by decide +kernel)
      (by decide +kernel) (by decide +kernel) (by decide +kernel) (by decide +kernel) (by decide +kernel))
  · cases hl h1
  · rw [line_field (p := "Connection lost: ".toList) (by decide +kernel) (by decide +kernel) h1]
  · exact absurd h1 (line_head (p := "Connection lost: ".toList) (p' := "Error received: ".toList) (by decide +kernel) (by decide +kernel)
      (by decide +kernel) (by decide +kernel) (by decide +kernel) (by decide +kernel) (by decide +kernel))
  · cases hl h1
  · cases hl h1
  · exact absurd h1 (line_head (p := "Error received: ".toList) (p' := "Connection lost: ".toList) (by decide +kernel) (by decide +kernel)
      (by decide +kernel) (by decide +kernel) (by decide +kernel) (by decide +kernel) (by decide +kernel))
  · rw [line_field (p := "Error received: ".toList) (by decide +kernel) (by decide +kernel) h1]
  · cases hl h1
  · exact absurd h1 (line_head (p := "read    ".toList) (p' := "Connection made: ".toList) (by decide +kernel) (by decide +kernel)
      (by decide +kernel) (by decide +kernel) (by decide +kernel) (by decide +kernel) (by decide +kernel))
  · cases hl h1
  · cases hl h1
  · injection h2 with h2 _
    rw [octetsWord_inj (line_field (p := "read    ".toList) (by decide +kernel) (by decide +kernel) h1),
      line_field (p := "read    ".toList) (by decide +kernel) (by decide +kernel) h2]

/-- C120: the log of the listener tells what happened to it: two runs with the same log had the same events. -/
theorem c120_events {v : Display} (ho : OrderOk v.order) (c : Listener) (hg : OneEach c.inner.state.got) {es es' : List DiscoveryEvent}
    (h : (Listener.run v c es).inner.log = (Listener.run v c es').inner.log) : es = es' := by
  rw [(c120_listener ho c hg es).1, (c120_listener ho c hg es').1] at h
  refine events_unique (log := listenerLog v) (fun _ => rfl) (fun _ _ _ => rfl) (fun s e => ?_) (listener_lines_unique v)
    (List.append_cancel_left h)
  cases e <;> exact List.cons_ne_nil _ _

/-- Datagrams that differ in an octet that is not decoded leave different logs. -/
example : (Listener.run exDisplay {} [.datagram [0x06, 0x10, 0x05, 0x30, 0, 6] "x".toList]).inner.log ≠
    (Listener.run exDisplay {} [.datagram [0x06, 0x10, 0x05, 0x30, 0, 7] "x".toList]).inner.log :=
  fun h => absurd (c120_events exOrderOk {} List.nodup_nil h) (by decide)

theorem listener_states (es : List DiscoveryEvent) : es.foldl listenerState discoveryState = listenedTo (datagramsIn es) := by
  unfold listenedTo
  generalize discoveryState = s
  induction es generalizing s with
  | nil => rfl
  | cons e es ih =>
    rw [List.foldl_cons, ih]
    cases e with
    | datagram d a =>
      have hd : (discoveryReceived d s).2 = listenerState s (.datagram d a) := by
        unfold discoveryReceived Py.bind
        rw [c01_lower_parse]
        rfl
      rw [← hd]
      rfl
    | made | lost | failed => rfl

/-- C120, the servers: whatever happened before, the response of a server is logged with its octets, its sender and the endpoint in
it. -/
theorem c120_server {v : Display} (ho : OrderOk v.order) (es : List DiscoveryEvent) (ip : BitVec 32) (port : BitVec 16)
    (medium status : Byte) (address : BitVec 16) (more : Msg) (a : List Char) :
    ∃ ia, (Listener.run v {} (es ++ [.datagram (searchResponse ip port medium status address more) a])).inner.log =
      (Listener.run v {} es).inner.log ++
        [discoveryLine .info "read    {}" (octetsWord (searchResponse ip port medium status address more)),
          discoveryLine .info "read    {}" a,
          discoveryLine .info "read decoded: {}"
            (fill "[SearchRes(ip={}, port={}, individual address=0x{})]".toList [ipWord ip.toNat, natWord port.toNat, ia])] := by
  have hx : Listener.run v {} (es ++ [.datagram (searchResponse ip port medium status address more) a]) =
      Listener.step v (Listener.run v {} es) (.datagram (searchResponse ip port medium status address more) a) := by
    unfold Listener.run
    rw [List.foldl_append]
    rfl
  obtain ⟨-, hs⟩ := c120_listener ho {} List.nodup_nil es
  have hs' : (Listener.run v {} es).inner.state = listenedTo (datagramsIn es) := hs.trans (listener_states es)
  have hg : (Listener.run v {} es).inner.state.got = none := by
    rw [hs]
    have : ∀ (es : List DiscoveryEvent) (s : State), (es.foldl listenerState s).got = s.got := by
      intro es
      induction es with
      | nil => exact fun _ => rfl
      | cons e es ih => exact fun s => (ih _).trans (listener_got s e)
    exact this es _
  have h := listener_step ho (Listener.run v {} es) (by rw [hg]; exact List.nodup_nil)
    (.datagram (searchResponse ip port medium status address more) a)
  rw [hx, h]
  have hd : decodeMsg (searchResponse ip port medium status address more) (Listener.run v {} es).inner.state =
      (.ok (.list [.searchRes ip.toNat port.toNat (256 * medium.toNat + status.toNat)]), listenedTo (datagramsIn es)) := by
    rw [hs', ← search_response]
    unfold discoveryReceived Py.bind
    rw [c01_lower_parse]
    rfl
  have hf : frameLines v (Listener.run v {} es).inner.state (searchResponse ip port medium status address more) = [] := by
    unfold frameLines
    rw [hs', listened_medium]
    unfold searchResponse
    simp only
    rw [octetsOf_two]
    rfl
  refine ⟨hexWord 4 (256 * medium.toNat + status.toNat), ?_⟩
  simp only [listenerLines]
  rw [hf, hd, List.append_nil]
  have hw : fill "[{}]".toList [sepBy ", " [fill "SearchRes(ip={}, port={}, individual address=0x{})".toList
      [ipWord ip.toNat, natWord port.toNat, hexWord 4 (256 * medium.toNat + status.toNat)]]] =
      fill "[SearchRes(ip={}, port={}, individual address=0x{})]".toList
        [ipWord ip.toNat, natWord port.toNat, hexWord 4 (256 * medium.toNat + status.toNat)] := by
    generalize ipWord ip.toNat = x1, natWord port.toNat = x2, hexWord 4 (256 * medium.toNat + status.toNat) = x3
    rewrite [fill_pieces "SearchRes(ip={}, port={}, individual address=0x{})" [x1, x2, x3] "SearchRes(ip=".toList
        [", port=".toList, ", individual address=0x".toList, ")".toList] (by decide +kernel) (by decide +kernel) rfl,
      fill_pieces "[SearchRes(ip={}, port={}, individual address=0x{})]" [x1, x2, x3] ("[".toList ++ "SearchRes(ip=".toList)
        [", port=".toList, ", individual address=0x".toList, ")".toList ++ "]".toList] (by decide +kernel) (by decide +kernel) rfl]
    generalize "SearchRes(ip=".toList = a1, ", port=".toList = a2, ", individual address=0x".toList = a3, ")".toList = a4
    simp [fill, sepBy]
  rw [← hw]
  rfl

example : (Listener.run exDisplay {} [.datagram (searchResponse 0xAC1F0AFA 3671 0x02 0x00 0xFFFF []) "x".toList]).inner.log.map (·.text) =
    ["read    061002020014" ++ "0801ac1f0afa0e57360" ++ "10200ffff" |>.toList, "read    x".toList,
      "read decoded: [SearchRes(ip=172.31.10.250, port=3671, individual address=0x0200)]".toList] := by
  rw [(c120_listener exOrderOk {} List.nodup_nil _).1]
  decide +kernel

theorem search_encode (ip : BitVec 32) (port : Int) (s : State) :
    encodeMsg (.searchReq ip port) s = (.ok (searchRequest ip port), s) := by
  show (Except.ok (searchReqEncode ip port), s) = _
  refine congrArg (fun x => (Except.ok x, s)) ?_
  unfold searchReqEncode searchRequest hpaiCreate ipHeaderEncode
  rw [shortOctets_mod port, longOctets_ofNat]
  rfl

theorem requester_step (c : Requester) (e : DiscoveryEvent) :
    (Requester.step c e).log = c.log ++ requesterLines (inetAton c.localAddr).toOption c.localPort e ∧
    (Requester.step c e).wire = c.wire ++ requestsFor (inetAton c.localAddr).toOption c.localPort e ∧
    (Requester.step c e).localAddr = c.localAddr ∧ (Requester.step c e).localPort = c.localPort := by
  cases e with
  | made t =>
    show (Requester.connectionMade t c).2.log = _ ∧ (Requester.connectionMade t c).2.wire = _ ∧
      (Requester.connectionMade t c).2.localAddr = _ ∧ (Requester.connectionMade t c).2.localPort = _
    unfold Requester.connectionMade Requester.write Requester.request searchReqText Py.bind Py.lift Py.modify
    simp only
    unfold requesterLines requestsFor
    rw [discoveryLine_eq .info "Connection made: {}" _ t (by decide +kernel) (by decide +kernel)]
    cases inetAton c.localAddr with
    | error e => simp [Except.toOption]
    | ok ip =>
      simp only [search_encode, c49_hex, Except.toOption, Option.map_some, Option.toList_some]
      rw [msgRepr_word, discoveryLine_eq .info "encode: {}" _ _ (by decide +kernel) (by decide +kernel)]
      simp
  | lost t =>
    refine ⟨?_, (List.append_nil _).symm, rfl, rfl⟩
    show _ ++ [_] = _
    rw [discoveryLine_eq .error "Connection lost: {}" _ t (by decide +kernel) (by decide +kernel)]
    rfl
  | failed t =>
    refine ⟨?_, (List.append_nil _).symm, rfl, rfl⟩
    show _ ++ [_] = _
    rw [discoveryLine_eq .error "Error received: {}" _ t (by decide +kernel) (by decide +kernel)]
    rfl
  | datagram d a =>
    refine ⟨?_, (List.append_nil _).symm, rfl, rfl⟩
    show (_ ++ [_]) ++ [_] = _
    rw [octets_word, discoveryLine_eq .info "read data:    {}" _ _ (by decide +kernel) (by decide +kernel),
      discoveryLine_eq .info "read from:    {}" _ a (by decide +kernel) (by decide +kernel), List.append_assoc]
    rfl

/-- C120, the requester: the lines exactly; for each connection made, one search request with its endpoint is logged and sent, if
its address is one, and nothing is sent otherwise. -/
theorem c120_requester (c : Requester) (es : List DiscoveryEvent) :
    (Requester.run c es).log = c.log ++ es.flatMap (requesterLines (inetAton c.localAddr).toOption c.localPort) ∧
    (Requester.run c es).wire = c.wire ++ es.flatMap (requestsFor (inetAton c.localAddr).toOption c.localPort) := by
  induction es generalizing c with
  | nil => exact ⟨(List.append_nil _).symm, (List.append_nil _).symm⟩
  | cons e es ih =>
    obtain ⟨h1, h2, h3, h4⟩ := requester_step c e
    obtain ⟨i1, i2⟩ := ih (Requester.step c e)
    rw [h1, h3, h4] at i1
    rw [h2, h3, h4] at i2
    rw [List.flatMap_cons, List.flatMap_cons, ← List.append_assoc, ← List.append_assoc]
    exact ⟨i1, i2⟩

example : (Requester.run ⟨"172.31.10.111".toList, 5544, false, discoveryState, [], []⟩
      [.made "<transport>".toList, .datagram [0x06, 0xAB] "('172.31.10.250', 3671)".toList]).log.map (·.text) =
    ["Connection made: <transport>".toList, "encode: 06100201000E0801AC1F0A6F15A8".toList, "read data:    06ab".toList,
      "read from:    ('172.31.10.250', 3671)".toList] := by
  rw [(c120_requester _ _).1]
  decide +kernel

/-- The name of the program in place of its address: nothing is sent. -/
example : (Requester.run ⟨"knxnet_ip_discovery.py".toList, 5544, false, discoveryState, [], []⟩ [.made "<transport>".toList]).wire = [] := by
  rw [(c120_requester _ _).2]
  decide +kernel

theorem requester_lines_unique (ip : Option (BitVec 32)) (port : Int) (e e' : DiscoveryEvent) (r r' : List LogLine)
    (h : requesterLines ip port e ++ r = requesterLines ip port e' ++ r') : e = e' := by
  have hl : ∀ {level level' : LogLevel} {p p' : String} {f f' : List Char}, discoveryLine level p f = discoveryLine level' p' f' →
      level = level' := fun h => congrArg LogLine.level h
  cases e <;> cases e' <;> injection h with h1 h2
  · rw [line_field (p := "Connection made: ".toList) (by decide +kernel) (by decide +kernel) h1]
  · cases hl h1
  · cases hl h1
  · exact absurd h1 (line_head (p := "Connection made: ".toList) (p' := "read data:    ".toList) (by decide +kernel) (by decide +kernel)
      (by decide +kernel) (by decide +kernel) (by decide +kernel) (by decide +kernel) (by decide +kernel))
  · cases hl h1
  · rw [line_field (p := "Connection lost: ".toList) (by decide +kernel) (by decide +kernel) h1]
  · exact absurd h1 (line_head (p := "Connection lost: ".toList) (p' := "Error received: ".toList) (by decide +kernel) (by decide +kernel)
      (by decide +kernel) (by decide +kernel) (by decide +kernel) (by decide +kernel) (by decide +kernel))
  · cases hl h1
  · cases hl h1
  · exact absurd h1 (line_head (p := "Error received: ".toList) (p' := "Connection lost: ".toList) (by decide +kernel) (by decide +kernel)
      (by decide +kernel) (by decide +kernel) (by decide +kernel) (by decide +kernel) (by decide +kernel))
  · rw [line_field (p := "Error received: ".toList) (by decide +kernel) (by decide +kernel) h1]
  · cases hl h1
  · exact absurd h1 (line_head (p := "read data:    ".toList) (p' := "Connection made: ".toList) (by decide +kernel) (by decide +kernel)
      (by decide +kernel) (by decide +kernel) (by decide +kernel) (by decide +kernel) (by decide +kernel))
  · cases hl h1
  · cases hl h1
  · injection h2 with h2 _
    rw [octetsWord_inj (line_field (p := "read data:    ".toList) (by decide +kernel) (by decide +kernel) h1),
      line_field (p := "read from:    ".toList) (by decide +kernel) (by decide +kernel) h2]

/-- C120: the log of the requester tells what happened to it. -/
theorem c120_requester_events (c : Requester) {es es' : List DiscoveryEvent} (h : (Requester.run c es).log = (Requester.run c es').log) :
    es = es' := by
  rw [(c120_requester c es).1, (c120_requester c es').1] at h
  refine events_unique (σ := Unit) (lines := fun _ => requesterLines (inetAton c.localAddr).toOption c.localPort) (next := fun _ _ => ())
    (log := fun _ es => es.flatMap (requesterLines (inetAton c.localAddr).toOption c.localPort)) (fun _ => rfl)
    (fun _ _ _ => List.flatMap_cons ..) (fun _ e => ?_) (fun _ => requester_lines_unique _ _) (s := ()) (List.append_cancel_left h)
  cases e <;> exact List.cons_ne_nil _ _

example : (Requester.run ⟨"172.31.10.111".toList, 5544, false, discoveryState, [], []⟩ [.lost "a".toList, .failed "b".toList]).log ≠
    (Requester.run ⟨"172.31.10.111".toList, 5544, false, discoveryState, [], []⟩ [.failed "b".toList, .lost "a".toList]).log :=
  fun h => absurd (c120_requester_events _ h) (by decide)

end Knx
