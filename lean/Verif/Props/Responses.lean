import Verif.Props.Tunnelling
import Verif.Spec.Responses

/-! # C59, C60: KNXnet/IP responses and malformed datagrams -/

namespace Knx
open Spec

theorem number_two (a b : Byte) : number [a, b] = a.toNat * 256 + b.toNat := by
  simp [number]; omega

theorem number_four (a b c d : Byte) :
    number [a, b, c, d] = ((a.toNat * 256 + b.toNat) * 256 + c.toNat) * 256 + d.toNat := by
  simp [number]; omega

theorem decode_ip {s : State} (hm : s.medium = .knxnetIp) (m : Msg) : decodeMsg m s = ipHeaderDecode m s := by
  unfold decodeMsg
  rw [hm]

theorem searchRes_answer (l1 l2 : Byte) (body : Msg) : searchResDecode (l1 :: l2 :: body) = searchAnswer body := by
  unfold searchResDecode
  rcases body with _ | ⟨b1, _ | ⟨b2, _ | ⟨b3, _ | ⟨b4, _ | ⟨b5, _ | ⟨b6, _ | ⟨b7, _ | ⟨b8, _ | ⟨b9, _ | ⟨b10,
    _ | ⟨b11, _ | ⟨b12, body⟩⟩⟩⟩⟩⟩⟩⟩⟩⟩⟩⟩ <;> try rfl
  simp only [short, octect, long, searchAnswer, shortOf_eq, longOf_eq, number_two, number_four]

/-- C60: a search response of any content is decoded to exactly its endpoint and the third and fourth octet of the device
information, or raises `IndexError` if it is shorter; the state does not change. -/
theorem c60_search (l1 l2 : Byte) (body : Msg) {s : State} (hm : s.medium = .knxnetIp) :
    decodeMsg (datagram 0x02 0x02 l1 l2 body) s = (answer (searchAnswer body), s) := by
  rw [decode_ip hm]
  simp only [datagram, List.cons_append, List.nil_append]
  rw [ip_dispatch, if_pos (by decide), if_pos (by decide), searchRes_answer]
  cases searchAnswer body <;> rfl

theorem connectStatus_code (st : Byte) : connectStatus st.toNat =
    match connectCode st with
    | some c => .ok c
    | none => .error .valueError := by
  revert st
  decide

theorem connectionStatus_code (st : Byte) : connStateStatus st.toNat =
    match connectionCode st with
    | some c => .ok c
    | none => .error .valueError := by
  revert st
  decide

/-- C60: a connect response of any content is decoded to exactly the endpoint, the individual address and the status it
carries; an undefined status is a `ValueError`, a missing endpoint a `TypeError`. Only the channel of the state changes, and
only if there is no error and no exception. -/
theorem c60_connect (l1 l2 : Byte) (body : Msg) {s : State} (hm : s.medium = .knxnetIp) :
    decodeMsg (datagram 0x02 0x06 l1 l2 body) s = (answer (connectAnswer body),
      { s with chan := channelAfter s.chan (.decode (datagram 0x02 0x06 l1 l2 body)) }) := by
  rw [decode_ip hm]
  simp only [datagram, List.cons_append, List.nil_append]
  rw [ip_dispatch, if_pos (by decide), if_neg (by decide), if_neg (by decide), if_pos (by decide)]
  unfold connectResDecode
  rcases body with _ | ⟨b1, _ | ⟨b2, _ | ⟨b3, _ | ⟨b4, _ | ⟨b5, _ | ⟨b6, _ | ⟨b7, _ | ⟨b8, _ | ⟨b9, _ | ⟨b10,
    body⟩⟩⟩⟩⟩⟩⟩⟩⟩⟩
  iterate 10 · simp [short, octect, hpai, connectAnswer, channelAfter, connectedTo, disconnected, answer]
  have hp : hpai (b3 :: b4 :: b5 :: b6 :: b7 :: b8 :: b9 :: b10 :: body) =
      .ok (number [b5, b6, b7, b8], number [b9, b10], body) := by
    unfold hpai
    rw [if_pos (by simp)]
    simp only [octect, long, short, shortOf_eq, longOf_eq, number_two, number_four]
  simp only [short, octect, hp, connectStatus_code]
  by_cases h : b2 = 0
  · subst h
    rw [if_pos (by decide)]
    rcases body with _ | ⟨d1, _ | ⟨d2, _ | ⟨d3, _ | ⟨d4, body⟩⟩⟩⟩
    iterate 4 · simp [crd, short, octect, connectAnswer, channelAfter, connectedTo, disconnected, answer]
    simp [crd, short, octect, connectAnswer, channelAfter, connectedTo, answer, shortOf_eq, number_two]
  · have h' : ¬ b2.toNat = 0 := fun e => h (BitVec.eq_of_toNat_eq e)
    have h2 : ¬ b2 = 0#8 := h
    rw [if_neg h']
    rcases hc : connectCode b2 with _ | c <;>
      simp [connectAnswer, channelAfter, connectedTo, disconnected, answer, h2, hc]

/-- C60: a connection state response of any content is decoded to exactly its status. -/
theorem c60_state (l1 l2 : Byte) (body : Msg) {s : State} (hm : s.medium = .knxnetIp) :
    decodeMsg (datagram 0x02 0x08 l1 l2 body) s = (answer (stateAnswer body), s) := by
  rw [decode_ip hm]
  simp only [datagram, List.cons_append, List.nil_append]
  rw [ip_dispatch, if_pos (by decide), if_neg (by decide), if_neg (by decide), if_neg (by decide), if_pos (by decide)]
  unfold connectionstateResDecode
  rcases body with _ | ⟨b1, _ | ⟨b2, body⟩⟩
  · rfl
  · rfl
  · simp only [short, octect, stateAnswer, connectionStatus_code]
    cases connectionCode b2 <;> rfl

/-- C60: a disconnect response of any content is decoded to exactly its channel if there is no error, and the channel of the
state is then 0; an error is not reported. -/
theorem c60_disconnect (l1 l2 : Byte) (body : Msg) {s : State} (hm : s.medium = .knxnetIp) :
    decodeMsg (datagram 0x02 0x0A l1 l2 body) s = (answer (disconnectAnswer body),
      { s with chan := channelAfter s.chan (.decode (datagram 0x02 0x0A l1 l2 body)) }) := by
  rw [decode_ip hm]
  simp only [datagram, List.cons_append, List.nil_append]
  rw [ip_dispatch, if_pos (by decide), if_neg (by decide), if_pos (by decide)]
  unfold disconnectResDecode
  rcases body with _ | ⟨b1, _ | ⟨b2, body⟩⟩
  · simp [short, octect, answer, disconnectAnswer, channelAfter, connectedTo, disconnected]
  · simp [short, octect, answer, disconnectAnswer, channelAfter, connectedTo, disconnected]
  · by_cases h : b2 = 0
    · subst h
      simp [short, octect, answer, disconnectAnswer, channelAfter, connectedTo, disconnected]
    · have h' : ¬ b2.toNat = 0 := fun e => h (BitVec.eq_of_toNat_eq e)
      have h2 : ¬ b2 = 0#8 := h
      simp [short, octect, answer, disconnectAnswer, channelAfter, connectedTo, disconnected, h', h2]

example : decodeMsg (datagram 0x02 0x02 0 76 [8, 1, 192, 168, 1, 9, 0x0E, 0x57, 54, 1, 2, 0, 0xFF]) (exState .knxnetIp) =
    (.ok (.list [.searchRes 0xC0A80109 3671 0x0200]), exState .knxnetIp) := by
  rw [c60_search _ _ _ rfl]; rfl

example : decodeMsg (datagram 0x02 0x06 0 16 [5, 0x24, 8, 1, 192, 168, 1, 9, 0x0E, 0x57]) (exState .knxnetIp) =
    (.ok (.list [.connectRes 0xC0A80109 3671 none .noMoreConnections]), exState .knxnetIp) := by
  rw [c60_connect _ _ _ rfl]; rfl

example : (decodeMsg (datagram 0x02 0x08 0 8 [5, 0x26]) (exState .knxnetIp)).1 =
    .ok (.list [.connectionstateRes .dataConnection]) := by
  rw [c60_state _ _ _ rfl]; rfl

example : decodeMsg (datagram 0x02 0x0A 0 8 [5, 0]) { exState .knxnetIp with chan := some 5 } =
    (.ok (.list [.disconnectRes 5 .noError]), { exState .knxnetIp with chan := some 0 }) := by
  rw [c60_disconnect _ _ _ rfl]; rfl

/-! ## C59 -/

theorem connectAnswer_error {body : Msg} {e : Err} (h : connectAnswer body = .error e) :
    Tolerated e ∨ e = .typeError ∧ 2 ≤ body.length ∧ body.length < 10 := by
  unfold connectAnswer at h
  repeat' split at h
  all_goals first
    | (cases h; left; unfold Tolerated; simp; done)
    | cases h
  rename_i x1 x2 rest hx
  right
  refine ⟨rfl, by simp, ?_⟩
  by_contra hlen
  rcases rest with _ | ⟨b3, _ | ⟨b4, _ | ⟨b5, _ | ⟨b6, _ | ⟨b7, _ | ⟨b8, _ | ⟨b9, _ | ⟨b10, body⟩⟩⟩⟩⟩⟩⟩⟩ <;>
    simp at hlen
  exact hx _ _ _ _ _ _ _ _ _ rfl

theorem tunnelingReq_error {m : Msg} {s : State} {a : AssocTable} {g : GroupObjectTable} (ha : s.assoc = some a)
    (hg : s.got = some g) {e : Err} (h : (tunnelingReqDecode m s).1 = .error e) : Tolerated e := by
  unfold tunnelingReqDecode at h
  rcases h1 : short m with e1 | ⟨x, b⟩ <;> rw [h1] at h <;> simp only at h
  · cases h; exact short_error h1
  rcases h2 : connHeader b with e2 | ⟨x1, x2, x3, b⟩ <;> rw [h2] at h <;> simp only at h
  · cases h
    unfold connHeader at h2
    repeat' split at h2
    all_goals first
      | (cases h2; exact octect_error (by assumption))
      | cases h2
  split_ifs at h
  · rcases h3 : msgCodeDecode b s with ⟨r, s'⟩
    rw [h3] at h
    rcases r with e3 | r <;> simp only at h
    · cases h
      exact msgCode_error (m := b) ha hg (by rw [h3])
    · cases h

theorem tunnelingAck_error {m : Msg} {s : State} {e : Err} (h : (tunnelingAckDecode m s).1 = .error e) : Tolerated e := by
  unfold tunnelingAckDecode at h
  rcases h1 : short m with e1 | ⟨x, b⟩ <;> rw [h1] at h <;> simp only at h
  · cases h; exact short_error h1
  rcases h2 : connHeader b with e2 | ⟨x1, x2, x3, b⟩ <;> rw [h2] at h <;> simp only at h
  · cases h
    unfold connHeader at h2
    repeat' split at h2
    all_goals first
      | (cases h2; exact octect_error (by assumption))
      | cases h2
  rcases h3 : errorCode x3 with e3 | st <;> rw [h3] at h <;> simp only at h
  · cases h
    unfold errorCode at h3
    split at h3 <;> cases h3
    unfold Tolerated
    simp
  · cases h

/-- C59: a datagram of any content makes the decoder raise nothing but `IndexError`, `KeyError` or `ValueError`, except for
the `TypeError` of a connect response that ends before the end of its endpoint. Missing from the full claim: these connect
responses (`c59_refuted`). -/
theorem c59_partial (m : Msg) {s : State} {a : AssocTable} {g : GroupObjectTable} (hm : s.medium = .knxnetIp)
    (ha : s.assoc = some a) (hg : s.got = some g) {e : Err} (h : (decodeMsg m s).1 = .error e) :
    e = .indexError ∨ e = .keyError ∨ e = .valueError ∨
      e = .typeError ∧ ∃ l1 l2 body, m = datagram 0x02 0x06 l1 l2 body ∧ 2 ≤ body.length ∧ body.length < 10 := by
  have ht : Tolerated e → _ := fun h => h.imp_right fun h => h.imp_right (Or.inl (b := e = .typeError ∧
    ∃ l1 l2 body, m = datagram 0x02 0x06 l1 l2 body ∧ 2 ≤ body.length ∧ body.length < 10))
  rcases m with _ | ⟨b1, _ | ⟨b2, _ | ⟨b3, _ | ⟨b4, body⟩⟩⟩⟩
  iterate 4
    · rw [decode_ip hm] at h
      cases h
      exact Or.inl rfl
  have h' := h
  rw [decode_ip hm, ip_dispatch] at h
  split_ifs at h with c0 c1 c2 c3 c4 c5 c6
  · rcases h1 : searchResDecode body with e1 | l <;> rw [h1] at h <;> simp only at h
    · cases h
      apply ht
      unfold searchResDecode at h1
      repeat' split at h1
      all_goals first
        | (cases h1; exact octect_error (by assumption))
        | (cases h1; exact short_error (by assumption))
        | (cases h1; exact long_error (by assumption))
        | cases h1
    · cases h
  · apply ht
    unfold disconnectResDecode at h
    repeat' split at h
    all_goals first
      | (cases h; exact octect_error (by assumption))
      | (cases h; exact short_error (by assumption))
      | cases h
  · obtain ⟨rfl, rfl⟩ := c0
    obtain ⟨rfl, rfl⟩ := c3
    rcases body with _ | ⟨l1, _ | ⟨l2, body⟩⟩
    · cases h; exact Or.inl rfl
    · cases h; exact Or.inl rfl
    · have := c60_connect l1 l2 body hm
      rw [show (0x06 :: 0x10 :: 0x02 :: 0x06 :: l1 :: l2 :: body : Msg) = datagram 0x02 0x06 l1 l2 body from rfl, this] at h'
      simp only at h'
      rcases h1 : connectAnswer body with e1 | l <;> rw [h1] at h'
      · cases h'
        rcases connectAnswer_error h1 with h2 | ⟨h2, h3⟩
        · exact ht h2
        · exact Or.inr (Or.inr (Or.inr ⟨h2, l1, l2, body, rfl, h3⟩))
      · cases h'
  · rcases h1 : connectionstateResDecode body with e1 | l <;> rw [h1] at h <;> simp only at h
    · cases h
      apply ht
      unfold connectionstateResDecode at h1
      repeat' split at h1
      all_goals first
        | (cases h1; exact octect_error (by assumption))
        | (cases h1; exact short_error (by assumption))
        | cases h1
      rename_i h2
      unfold connStateStatus at h2
      split_ifs at h2
      cases h2
      unfold Tolerated
      simp
    · cases h
  · exact ht (tunnelingReq_error ha hg h)
  · exact ht (tunnelingAck_error h)

/-- C59 is false: a connect response that ends within its endpoint is a `TypeError`, for every such response. -/
theorem c59_refuted (l1 l2 : Byte) {body : Msg} (h2 : 2 ≤ body.length) (h10 : body.length < 10) {s : State}
    (hm : s.medium = .knxnetIp) : decodeMsg (datagram 0x02 0x06 l1 l2 body) s = (.error .typeError, s) := by
  rw [c60_connect _ _ _ hm]
  rcases body with _ | ⟨b1, _ | ⟨b2, _ | ⟨b3, _ | ⟨b4, _ | ⟨b5, _ | ⟨b6, _ | ⟨b7, _ | ⟨b8, _ | ⟨b9, _ | ⟨b10,
    body⟩⟩⟩⟩⟩⟩⟩⟩⟩⟩ <;> simp at h2 h10 <;> try omega
  all_goals simp [connectAnswer, answer, channelAfter, connectedTo, disconnected, datagram]

example : (decodeMsg (datagram 0x02 0x08 0 8 [5, 0x25]) (exState .knxnetIp)).1 = .error .valueError ∧
    (Err.valueError = .indexError ∨ Err.valueError = .keyError ∨ Err.valueError = .valueError ∨
      Err.valueError = .typeError ∧ ∃ l1 l2 body, datagram 0x02 0x08 0 8 [5, 0x25] = datagram 0x02 0x06 l1 l2 body ∧
        2 ≤ body.length ∧ body.length < 10) :=
  ⟨by decide, c59_partial (datagram 0x02 0x08 0 8 [5, 0x25]) (s := exState .knxnetIp) rfl rfl rfl (by decide)⟩

example : decodeMsg (datagram 0x02 0x06 0 8 [0, 0x24]) (exState .knxnetIp) = (.error .typeError, exState .knxnetIp) :=
  c59_refuted 0 8 (by decide) (by decide) rfl

end Knx
