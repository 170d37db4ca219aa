import Verif.Props.Responses
import Verif.Spec.StatusCodes

/-! # C105: the status codes of KNXnet/IP -/

namespace Knx
open Spec

/-- What decoding makes of the status octet of an answer. -/
def readStatus : Reply → Byte → Option (List Status)
  | .connect, 0x00 => some [.noError]
  | .connect, 0x22 => some [.connectionType]
  | .connect, 0x23 => some [.connectionOption]
  | .connect, 0x24 => some [.noMoreConnections]
  | .state, 0x00 => some [.noError]
  | .state, 0x21 => some [.connectionId]
  | .state, 0x26 => some [.dataConnection]
  | .state, 0x27 => some [.knxConnection]
  | .disconnect, 0x00 => some [.noError]
  | .disconnect, _ => some []
  | .ack, 0x00 => some [.noError]
  | .ack, 0x01 => some [.hostProtocolType]
  | .ack, 0x02 => some [.versionNotSupported]
  | .ack, 0x03 => some [.sequenceNumber]
  | _, _ => none

theorem connect_told (ip port : Nat) (o : Byte) (h : o ≠ 0) :
    told (answer (match connectCode o with
      | some c => .ok [.connectRes ip port none c]
      | none => .error .valueError)) = readStatus .connect o := by
  have e : told (answer (match connectCode o with
      | some c => .ok [.connectRes 0 0 none c]
      | none => .error .valueError)) = readStatus .connect o := by
    revert o
    decide
  rw [← e]
  cases connectCode o with
  | none => rfl
  | some c => cases c <;> rfl

theorem state_told (c o : Byte) (rest : Msg) : told (answer (stateAnswer (c :: o :: rest))) = readStatus .state o := by
  have e : told (answer (stateAnswer [0, o])) = readStatus .state o := by
    revert o
    decide
  rw [← e]
  rfl

theorem ack_told (o : Byte) (n : Nat) :
    told (match errorCode o.toNat with
      | .error e => .error e
      | .ok st => .ok (.tuple [.tunnelingAck n st])) = readStatus .ack o := by
  have e : told (match errorCode o.toNat with
      | .error e => .error e
      | .ok st => .ok (.tuple [.tunnelingAck 0 st])) = readStatus .ack o := by
    revert o
    decide
  rw [← e]
  cases errorCode o.toNat <;> rfl

theorem reply_told {r : Reply} {o : Byte} {d : Msg} (h : CarriesStatus r o d) {s : State} (hm : s.medium = .knxnetIp) :
    told (decodeMsg d s).1 = readStatus r o := by
  cases r with
  | connect =>
    obtain ⟨l1, l2, c, e, rest, he, hr, rfl⟩ := h
    rw [c60_connect _ _ _ hm]
    obtain ⟨e1, e2, e3, e4, e5, e6, e7, e8, rfl⟩ : ∃ e1 e2 e3 e4 e5 e6 e7 e8, e = [e1, e2, e3, e4, e5, e6, e7, e8] := by
      rcases e with _ | ⟨b1, _ | ⟨b2, _ | ⟨b3, _ | ⟨b4, _ | ⟨b5, _ | ⟨b6, _ | ⟨b7, _ | ⟨b8, _ | ⟨b9, e⟩⟩⟩⟩⟩⟩⟩⟩⟩ <;>
        simp at he
      exact ⟨_, _, _, _, _, _, _, _, rfl⟩
    by_cases h0 : o = 0
    · subst h0
      have hr := hr rfl
      rcases rest with _ | ⟨r1, _ | ⟨r2, _ | ⟨r3, _ | ⟨r4, rest⟩⟩⟩⟩
      iterate 4 · simp at hr
      rfl
    · rw [← connect_told (number [e3, e4, e5, e6]) (number [e7, e8]) o h0]
      simp only [List.cons_append, List.nil_append, connectAnswer, if_neg h0]
      cases connectCode o <;> rfl
  | state =>
    obtain ⟨l1, l2, c, rest, rfl⟩ := h
    rw [c60_state _ _ _ hm]
    exact state_told _ _ _
  | disconnect =>
    obtain ⟨l1, l2, c, rest, rfl⟩ := h
    rw [c60_disconnect _ _ _ hm]
    have : readStatus .disconnect o = some (if o = 0 then [.noError] else []) := by
      revert o
      decide
    rw [this]
    simp only [disconnectAnswer]
    split <;> rfl
  | ack =>
    obtain ⟨l1, l2, a, c, n, rest, rfl⟩ := h
    rw [decode_ip hm]
    simp only [datagram, List.cons_append, List.nil_append]
    rw [ip_dispatch, if_pos (by decide), if_neg (by decide), if_neg (by decide), if_neg (by decide), if_neg (by decide),
      if_neg (by decide), if_pos (by decide)]
    simp only [tunnelingAckDecode, short, connHeader, octect]
    rw [← ack_told o (if s.seqLocal = n.toNat then s.setSeqLocal (s.seqLocal + 1) else s).seqLocal]
    split <;> rename_i hc <;> simp only [hc]

/-- C105: an answer with a status of the standard is decoded to a message that names this status, whatever else it contains,
except for the three cases of `c105_refuted`. -/
theorem c105_partial {r : Reply} {st : Status} (hs : st ∈ r.codes) (h1 : ¬ (r = .ack ∧ st = .sequenceNumber))
    (h2 : ¬ (r = .connect ∧ st = .tunnellingLayer)) (h3 : ¬ (r = .disconnect ∧ st ≠ .noError))
    {d : Msg} (h : CarriesStatus r st.octet d) {s : State} (hm : s.medium = .knxnetIp) :
    told (decodeMsg d s).1 = some [st] := by
  rw [reply_told h hm]
  revert hs h1 h2 h3
  cases r <;> cases st <;> decide

/-- C105 is false: an acknowledgement with a wrong sequence number and a connect response that refuses the tunnelling layer
are always exceptions, and an error in a disconnect response is never told. -/
theorem c105_refuted {r : Reply} {st : Status} {d : Msg} (h : CarriesStatus r st.octet d) {s : State} (hm : s.medium = .knxnetIp) :
    (r = .ack ∧ st = .sequenceNumber → told (decodeMsg d s).1 = none) ∧
    (r = .connect ∧ st = .tunnellingLayer → told (decodeMsg d s).1 = none) ∧
    (r = .disconnect ∧ st ≠ .noError → told (decodeMsg d s).1 = some []) := by
  rw [reply_told h hm]
  cases r <;> cases st <;> decide

/-- C105: a status is never taken for another one: what is told is the status with the octet received, except that an
acknowledgement with the octet 3, which has no meaning, is taken for one with a wrong sequence number. -/
theorem c105_misread {r : Reply} {o : Byte} {d : Msg} (h : CarriesStatus r o d) {s : State} (hm : s.medium = .knxnetIp)
    {l : List Status} (ht : told (decodeMsg d s).1 = some l) {st : Status} (hl : st ∈ l) :
    (l = [st] ∧ st ∈ r.codes ∧ o = st.octet) ∨ (r = .ack ∧ o = 3 ∧ l = [.sequenceNumber]) := by
  rw [reply_told h hm] at ht
  have : ∀ r : Reply, ∀ o : Byte, ∀ l ∈ readStatus r o, ∀ st ∈ l,
      (l = [st] ∧ st ∈ r.codes ∧ o = st.octet) ∨ (r = .ack ∧ o = 3 ∧ l = [.sequenceNumber]) := by
    intro r
    cases r <;> decide
  exact this r o l ht st hl

/-- C105: the acknowledgement that is encoded carries the octet of its status, exactly unless it is that of a wrong sequence
number, for which it carries the octet 3. -/
theorem c105_encode {s : State} {c : Nat} (hc : s.chan = some c) (seq : Nat) (status : ErrorCode) :
    ∃ d o, (encodeMsg (.tunnelingAck seq status) s).1 = .ok d ∧ CarriesStatus .ack o d ∧
      (o = (ackStatus status).octet ↔ status ≠ .sequenceNumber) ∧ (status = .sequenceNumber → o = 3) := by
  refine ⟨datagram 0x04 0x21 0 10 [4, octetOf c, octetOf s.seqRemote, octetOf status.toNat], octetOf status.toNat, ?_,
    ⟨_, _, _, _, _, [], rfl⟩, ?_, ?_⟩
  · simp only [encodeMsg, tunnelingAckEncode, connectionHeader, hc]
    rfl
  · cases status <;> decide
  · cases status <;> decide

/-- A refusal with the endpoint of the server. -/
example : told (decodeMsg (datagram 0x02 0x06 0 16 [0, 0x24, 8, 1, 192, 168, 1, 9, 0x0E, 0x57]) (exState .knxnetIp)).1 =
    some [.noMoreConnections] :=
  c105_partial (r := .connect) (st := .noMoreConnections) (by decide) (by decide) (by decide) (by decide)
    ⟨0, 16, 0, [8, 1, 192, 168, 1, 9, 0x0E, 0x57], [], rfl, by decide, rfl⟩ rfl

/-- An acknowledgement with a wrong sequence number. -/
example : told (decodeMsg (datagram 0x04 0x21 0 10 [4, 7, 200, 4]) (exState .knxnetIp)).1 = none :=
  (c105_refuted (r := .ack) (st := .sequenceNumber) ⟨0, 10, 4, 7, 200, [], rfl⟩ rfl).1 ⟨rfl, rfl⟩

example : ∃ st, told (decodeMsg (datagram 0x04 0x21 0 10 [4, 7, 200, 3]) (exState .knxnetIp)).1 = some [st] ∧
    ¬ (3 : Byte) = st.octet := by
  have h : CarriesStatus .ack 3 (datagram 0x04 0x21 0 10 [4, 7, 200, 3]) := ⟨0, 10, 4, 7, 200, [], rfl⟩
  have ht : told (decodeMsg (datagram 0x04 0x21 0 10 [4, 7, 200, 3]) (exState .knxnetIp)).1 = some [.sequenceNumber] := by
    rw [reply_told h rfl]; rfl
  have := c105_misread h rfl ht (List.mem_singleton.2 rfl)
  exact ⟨_, ht, by decide⟩

example : ∃ d o, (encodeMsg (.tunnelingAck 9 .sequenceNumber) { exState .knxnetIp with chan := some 7 }).1 = .ok d ∧
    CarriesStatus .ack o d ∧ o = 3 := by
  obtain ⟨d, o, h1, h2, -, h4⟩ := c105_encode (s := { exState .knxnetIp with chan := some 7 }) rfl 9 .sequenceNumber
  exact ⟨d, o, h1, h2, h4 rfl⟩

end Knx
