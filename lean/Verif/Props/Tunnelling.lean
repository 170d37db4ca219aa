import Verif.Spec.Sessions
import Verif.Props.Decoder
import Verif.Props.Encoder
import Verif.Props.Lengths

/-! # C39–C45: tunnelling counters, channel and endpoints -/

namespace Knx

open Spec

theorem service_iff (a b : Byte) (x y : Byte) (n : Nat) (h : x.toNat * 256 + y.toNat = n) :
    shortOf a b = n ↔ a = x ∧ b = y := by
  rw [shortOf_eq, ← h]
  have ha := a.isLt
  have hb := b.isLt
  have hx := x.isLt
  have hy := y.isLt
  constructor
  · intro e
    constructor <;> apply BitVec.eq_of_toNat_eq <;> omega
  · rintro ⟨rfl, rfl⟩
    rfl

/-- The dispatch on the service. -/
theorem ip_dispatch (h v a b : Byte) (body : Msg) (s : State) :
    ipHeaderDecode (h :: v :: a :: b :: body) s =
      if h = 0x06 ∧ v = 0x10 then
        if a = 0x02 ∧ b = 0x02 then
          match searchResDecode body with
          | .error e => (.error e, s)
          | .ok r => (.ok (.list r), s)
        else if a = 0x02 ∧ b = 0x0A then disconnectResDecode body s
        else if a = 0x02 ∧ b = 0x06 then connectResDecode body s
        else if a = 0x02 ∧ b = 0x08 then
          match connectionstateResDecode body with
          | .error e => (.error e, s)
          | .ok r => (.ok (.list r), s)
        else if a = 0x04 ∧ b = 0x20 then tunnelingReqDecode body s
        else if a = 0x04 ∧ b = 0x21 then tunnelingAckDecode body s
        else (.ok (.list []), s)
      else (.ok (.list []), s) := by
  unfold ipHeaderDecode
  simp only [octect, short]
  have e1 : (h.toNat = 0x06 ∧ v.toNat = 0x10) ↔ h = 0x06 ∧ v = 0x10 := by
    constructor
    · rintro ⟨e1, e2⟩
      exact ⟨BitVec.eq_of_toNat_eq e1, BitVec.eq_of_toNat_eq e2⟩
    · rintro ⟨rfl, rfl⟩
      exact ⟨rfl, rfl⟩
  simp only [e1, service_iff a b 0x02 0x02 0x0202 (by decide), service_iff a b 0x02 0x0A 0x020A (by decide),
    service_iff a b 0x02 0x06 0x0206 (by decide), service_iff a b 0x02 0x08 0x0208 (by decide),
    service_iff a b 0x04 0x20 0x0420 (by decide), service_iff a b 0x04 0x21 0x0421 (by decide)]
  split_ifs
  · cases searchResDecode body <;> rfl
  · rfl
  · rfl
  · cases connectionstateResDecode body <;> rfl
  · rfl
  · rfl
  · rfl
  · rfl

/-- Datagrams too short to have a service raise. -/
theorem ip_short {m : Msg} (h : m.length < 4) (s : State) : ∃ e, ipHeaderDecode m s = (.error e, s) := by
  rcases m with _ | ⟨a, _ | ⟨b, _ | ⟨c, _ | ⟨d, m⟩⟩⟩⟩
  · exact ⟨_, rfl⟩
  · exact ⟨_, rfl⟩
  · exact ⟨_, rfl⟩
  · exact ⟨_, rfl⟩
  · exact absurd h (by simp only [List.length_cons]; omega)

/-! ## C39 -/

theorem counters_after (s : State) (h : s.seqRemote < 256 ∧ s.seqLocal < 256) (c : Call) :
    (after s c).seqRemote < 256 ∧ (after s c).seqLocal < 256 := by
  have hmod : ∀ v : Int, (v % 256).toNat < 256 := by intro v; omega
  cases c with
  | encode m =>
    obtain ⟨_, _, _, r, he, hr, -⟩ := c37_frame m s
    show (encodeMsg m s).2.seqRemote < 256 ∧ (encodeMsg m s).2.seqLocal < 256
    rw [he]
    refine ⟨?_, h.2⟩
    rcases hr with hr | ⟨_, -, hr⟩ <;> simp only <;> omega
  | decode m =>
    show (decodeMsg m s).2.seqRemote < 256 ∧ (decodeMsg m s).2.seqLocal < 256
    unfold decodeMsg
    cases s.medium with
    | tp => exact h
    | usbHid =>
      simp only
      have := report_ends m s
      generalize reportIdDecode m s = x at this
      cases this <;> exact h
    | knxnetIp =>
      simp only
      have := ip_ends m s
      generalize ipHeaderDecode m s = x at this
      cases this with
      | acked r =>
        refine ⟨h.1, ?_⟩
        unfold State.setSeqLocal
        exact hmod (s.seqLocal + 1)
      | same | channel | frame => exact h
  | setRemote v => exact ⟨hmod _, h.2⟩
  | setLocal v => exact ⟨h.1, hmod _⟩

/-- C39: both sequence counters are octets after any history of calls on a new state, raising or not. -/
theorem c39_octets (m : Medium) (a : Option AssocTable) (g : Option GroupObjectTable) (cs : List Call) :
    ((afterAll (State.initIp m a g) cs).seqRemote < 256 ∧ (afterAll (State.initIp m a g) cs).seqLocal < 256) ∧
    (afterAll (State.init m a g) cs).seqRemote < 256 ∧ (afterAll (State.init m a g) cs).seqLocal < 256 := by
  have : ∀ (cs : List Call) (s : State), s.seqRemote < 256 ∧ s.seqLocal < 256 →
      (afterAll s cs).seqRemote < 256 ∧ (afterAll s cs).seqLocal < 256 := by
    intro cs
    induction cs with
    | nil => exact fun s h => h
    | cons c cs ih => exact fun s h => ih _ (counters_after s h c)
  exact ⟨this cs _ ⟨Nat.zero_lt_succ _, Nat.zero_lt_succ _⟩, this cs _ ⟨Nat.zero_lt_succ _, Nat.zero_lt_succ _⟩⟩

example : (afterAll (State.initIp .knxnetIp none none) [.setRemote (-1), .setLocal 255,
    .encode (.tunnelingAck 255 .noError), .decode (ackFrame 0 255 9)]).seqRemote = 0 ∧
    (afterAll (State.initIp .knxnetIp none none) [.setRemote (-1), .setLocal 255,
    .encode (.tunnelingAck 255 .noError), .decode (ackFrame 0 255 9)]).seqLocal = 0 := by decide

/-! ## C40 -/

theorem tunnel_open (l1 l2 h chan seq st : Byte) (m : Msg) (s : State) :
    ipHeaderDecode (tunnelDatagram l1 l2 h chan seq st m) s =
      if s.seqRemote = seq.toNat then
        match msgCodeDecode m s with
        | (.error e, s') => (.error e, s')
        | (.ok r, s') => (.ok (.list (extend [.tunnelingReq seq.toNat .noError] r)), s')
      else (.ok (.list [.tunnelingReq seq.toNat (if s.seqRemote = seq.toNat + 1 then .noError else .sequenceNumber)]), s) := by
  unfold tunnelDatagram datagram
  simp only [List.cons_append, List.nil_append]
  rw [ip_dispatch, if_pos (by decide), if_neg (by decide), if_neg (by decide), if_neg (by decide), if_neg (by decide),
    if_pos (by decide)]
  unfold tunnelingReqDecode
  simp only [short, connHeader, octect]
  split_ifs <;> rfl

/-- Frames are decoded by the tables alone. -/
theorem msgCode_tables (m : Msg) {s s' : State} (h : s.tables = s'.tables) :
    (msgCodeDecode m s).1 = (msgCodeDecode m s').1 := by
  have key : ∀ k b, (cemiLdataDecode k b s).1 = (cemiLdataDecode k b s').1 := by
    intro k b
    unfold cemiLdataDecode
    rcases LData.makeFrom b with e | ⟨l, b⟩
    · rfl
    · simp only [h]
  unfold msgCodeDecode
  rcases octect m with e1 | ⟨code, b⟩
  · rfl
  simp only
  rcases octect b with e2 | ⟨len, b⟩
  · rfl
  simp only
  split_ifs
  · exact key _ _
  · exact key _ _
  · rfl

/-- C40: a tunnelling request with another counter than the expected one delivers nothing but a note of its arrival, and
leaves the state unchanged. -/
theorem c40_other {s : State} (hm : s.medium = .knxnetIp) (l1 l2 h chan seq st : Byte) (m : Msg)
    (hs : s.seqRemote ≠ seq.toNat) :
    decodeMsg (tunnelDatagram l1 l2 h chan seq st m) s =
      (.ok (.list [.tunnelingReq seq.toNat (if s.seqRemote = seq.toNat + 1 then .noError else .sequenceNumber)]), s) := by
  unfold decodeMsg
  rw [hm]
  simp only
  rw [tunnel_open, if_neg hs]

/-- C40: a request with the expected counter delivers exactly what a USB interface delivers for the same cEMI frame, after
the note of its arrival; it raises exactly when that raises. -/
theorem c40_expected {s : State} (hm : s.medium = .knxnetIp) (l1 l2 h chan seq st : Byte) (m pad : Msg)
    (hs : s.seqRemote = seq.toNat) (hl : m.length + 8 < 256) :
    (∀ l, (decodeMsg (usbReport m ++ pad) { s with medium := .usbHid }).1 = .ok (.list l) →
      (decodeMsg (tunnelDatagram l1 l2 h chan seq st m) s).1 = .ok (.list (.tunnelingReq seq.toNat .noError :: l))) ∧
    ((decodeMsg (usbReport m ++ pad) { s with medium := .usbHid }).1 = .ok .none →
      (decodeMsg (tunnelDatagram l1 l2 h chan seq st m) s).1 = .ok (.list [.tunnelingReq seq.toNat .noError])) ∧
    ∀ e, (decodeMsg (usbReport m ++ pad) { s with medium := .usbHid }).1 = .error e ↔
      (decodeMsg (tunnelDatagram l1 l2 h chan seq st m) s).1 = .error e := by
  have h1 : (decodeMsg (usbReport m ++ pad) { s with medium := .usbHid }).1 = (msgCodeDecode m s).1 := by
    show (reportIdDecode (usbReport m ++ pad) { s with medium := .usbHid }).1 = _
    rw [usb_open hl pad]
    exact msgCode_tables m rfl
  have h2 : (decodeMsg (tunnelDatagram l1 l2 h chan seq st m) s).1 =
      match (msgCodeDecode m s).1 with
      | .error e => .error e
      | .ok r => .ok (.list (extend [.tunnelingReq seq.toNat .noError] r)) := by
    show (match s.medium with
      | .usbHid => reportIdDecode (tunnelDatagram l1 l2 h chan seq st m) s
      | .knxnetIp => ipHeaderDecode (tunnelDatagram l1 l2 h chan seq st m) s
      | .tp => (.error .exception, s)).1 = _
    rw [hm]
    simp only
    rw [tunnel_open, if_pos hs]
    rcases msgCodeDecode m s with ⟨e | r, s'⟩ <;> rfl
  rw [h1, h2]
  refine ⟨fun l hl => ?_, fun hl => ?_, fun e => ?_⟩
  · rw [hl]; rfl
  · rw [hl]; rfl
  · rcases (msgCodeDecode m s).1 with e' | r
    · simp
    · simp

example : (decodeMsg (tunnelDatagram 0 0 4 9 7 0 (cemi 0x29 [] exTelegram)) (exState .knxnetIp)) =
    (.ok (.list [.tunnelingReq 7 .sequenceNumber]), exState .knxnetIp) :=
  c40_other rfl 0 0 4 9 7 0 _ (by decide)

example : (decodeMsg (tunnelDatagram 0 0 4 9 255 0 (cemi 0x29 [] exTelegram)) (exState .knxnetIp)).1 =
    .ok (.list [.tunnelingReq 255 .noError, .group .write .ind ⟨3, none⟩ ⟨.switch, 0x65⟩,
      .group .write .ind ⟨7, none⟩ ⟨.float16, 0x0C65⟩]) :=
  (c40_expected (s := exState .knxnetIp) rfl 0 0 4 9 255 0 (cemi 0x29 [] exTelegram) [] (by decide) (by decide)).1 _ (by decide)

/-! ## C41, C42 -/

theorem ack_encode {s : State} {c : Nat} (hc : s.chan = some c) (seq : Nat) (status : ErrorCode) :
    encodeMsg (.tunnelingAck seq status) s =
      (.ok (ackFrame c s.seqRemote status.toNat),
        if seq = s.seqRemote then { s with seqRemote := (s.seqRemote + 1) % 256 } else s) := by
  show tunnelingAckEncode seq status s = _
  unfold tunnelingAckEncode connectionHeader
  rw [hc]
  simp only [octetOf_ofNat]
  refine congrArg₂ Prod.mk ?_ ?_
  · rfl
  · split_ifs
    · unfold State.setSeqRemote
      congr 1
    · rfl

/-- C41: after a request with the expected counter the acknowledgement carries the request's counter, the connection's
channel and no error; the expected counter moves on by one, once, however often the acknowledgement is produced. -/
theorem c41_ack {s : State} (hm : s.medium = .knxnetIp) {c : Nat} (hc : s.chan = some c)
    (l1 l2 h chan seq st : Byte) (m : Msg) (hs : s.seqRemote = seq.toNat) (again : Nat) :
    let s1 := (decodeMsg (tunnelDatagram l1 l2 h chan seq st m) s).2
    (encodeMsg (.tunnelingAck seq.toNat .noError) s1).1 = .ok (ackFrame c seq.toNat 0) ∧
    (Nat.repeat (fun s => (encodeMsg (.tunnelingAck seq.toNat .noError) s).2) (again + 1) s1).seqRemote =
      (seq.toNat + 1) % 256 := by
  intro s1
  have hend : s1.seqRemote = s.seqRemote ∧ s1.chan = s.chan := by
    have : IpEnds s (decodeMsg (tunnelDatagram l1 l2 h chan seq st m) s) := by
      unfold decodeMsg
      rw [hm]
      exact ip_ends _ s
    have hx : s1 = (decodeMsg (tunnelDatagram l1 l2 h chan seq st m) s).2 := rfl
    have hx' : decodeMsg (tunnelDatagram l1 l2 h chan seq st m) s =
      match msgCodeDecode m s with
        | (.error e, s') => (.error e, s')
        | (.ok r, s') => (.ok (.list (extend [.tunnelingReq seq.toNat .noError] r)), s') := by
      unfold decodeMsg
      rw [hm]
      simp only
      rw [tunnel_open, if_pos hs]
    have he := msgCode_ends m s
    rw [hx, hx']
    generalize msgCodeDecode m s = x at he
    cases he with
    | raises e => exact ⟨rfl, rfl⟩
    | returns l => exact ⟨rfl, rfl⟩
    | frame k l b =>
      rcases lDataDecode k s.tables l b with e | r <;> exact ⟨rfl, rfl⟩
  have hseq := seq.isLt
  constructor
  · rw [ack_encode (hend.2.trans hc), hend.1, hs]
    rfl
  · have step : ∀ s' : State, s'.chan = some c → s'.seqRemote = seq.toNat ∨ s'.seqRemote = (seq.toNat + 1) % 256 →
        (encodeMsg (.tunnelingAck seq.toNat .noError) s').2.seqRemote = (seq.toNat + 1) % 256 ∧
        (encodeMsg (.tunnelingAck seq.toNat .noError) s').2.chan = some c := by
      intro s' hc' hs'
      rw [ack_encode hc']
      simp only
      split_ifs with he
      · exact ⟨by simp only [← he], hc'⟩
      · exact ⟨hs'.resolve_left fun h => he h.symm, hc'⟩
    have : ∀ n : Nat, (Nat.repeat (fun s => (encodeMsg (.tunnelingAck seq.toNat .noError) s).2) (n + 1) s1).seqRemote =
        (seq.toNat + 1) % 256 ∧
        (Nat.repeat (fun s => (encodeMsg (.tunnelingAck seq.toNat .noError) s).2) (n + 1) s1).chan = some c := by
      intro n
      induction n with
      | zero => exact step s1 (hend.2.trans hc) (.inl (hend.1.trans hs))
      | succ n ih => exact step _ ih.2 (.inr ih.1)
    exact (this again).1

example : let s1 := (decodeMsg (tunnelDatagram 0 0 4 9 255 0 (cemi 0x29 [] exTelegram)) (exState .knxnetIp)).2
    (encodeMsg (.tunnelingAck 255 .noError) s1).1 = .ok [0x06, 0x10, 0x04, 0x21, 0, 10, 4, 0, 255, 0] ∧
    (encodeMsg (.tunnelingAck 255 .noError) (encodeMsg (.tunnelingAck 255 .noError) s1).2).2.seqRemote = 0 :=
  c41_ack (s := exState .knxnetIp) rfl (c := 0) rfl 0 0 4 9 255 0 (cemi 0x29 [] exTelegram) (by decide) 1

/-- C42, second clause: however often the last accepted request is retransmitted, none of the retransmissions delivers
anything or changes the state. Missing from the full claim: the acknowledgement (`c42_refuted`, `c42_wrap_refuted`). -/
theorem c42_partial {s : State} (hm : s.medium = .knxnetIp) (seq : Byte)
    (hlast : s.seqRemote = (seq.toNat + 1) % 256) (frames : List Msg)
    (hf : ∀ f ∈ frames, ∃ l1 l2 h chan st m, f = tunnelDatagram l1 l2 h chan seq st m) :
    (∀ r ∈ decodeAll s frames, r = .ok (.list [.tunnelingReq seq.toNat
      (if seq = 255 then .sequenceNumber else .noError)])) ∧ afterAll s (frames.map .decode) = s := by
  have hseq := seq.isLt
  have key : ∀ f, (∃ l1 l2 h chan st m, f = tunnelDatagram l1 l2 h chan seq st m) →
      decodeMsg f s = (.ok (.list [.tunnelingReq seq.toNat (if seq = 255 then .sequenceNumber else .noError)]), s) := by
    rintro f ⟨l1, l2, h, chan, st, m, rfl⟩
    rw [c40_other hm l1 l2 h chan seq st m (by omega)]
    have : (s.seqRemote = seq.toNat + 1) ↔ ¬ seq = 255 := by
      constructor
      · rintro h rfl
        simp at h
        omega
      · intro hne
        have : seq.toNat ≠ 255 := fun h => hne (BitVec.eq_of_toNat_eq h)
        omega
    simp only [this]
    split_ifs <;> rfl
  induction frames with
  | nil => exact ⟨by simp [decodeAll], rfl⟩
  | cons f fs ih =>
    have h1 := key f (hf f List.mem_cons_self)
    obtain ⟨h2, h3⟩ := ih fun f hm => hf f (List.mem_cons_of_mem _ hm)
    constructor
    · intro r hr
      simp only [decodeAll, h1, List.mem_cons] at hr
      rcases hr with rfl | hr
      · rfl
      · exact h2 r hr
    · simp only [afterAll, List.map_cons, List.foldl_cons] at h3 ⊢
      rw [show after s (.decode f) = s from congrArg Prod.snd h1]
      exact h3

/-- C42 is false, for every counter: the acknowledgement of a retransmission carries the next expected counter. -/
theorem c42_refuted {s : State} {c : Nat} (hc : s.chan = some c) (seq : Nat)
    (hlast : s.seqRemote = (seq + 1) % 256) (status : ErrorCode) :
    (encodeMsg (.tunnelingAck seq status) s).1 = .ok (ackFrame c ((seq + 1) % 256) status.toNat) ∧
    ackFrame c ((seq + 1) % 256) status.toNat ≠ ackFrame c seq status.toNat := by
  constructor
  · rw [ack_encode hc, hlast]
  · unfold ackFrame
    intro h
    simp only [List.cons.injEq, true_and, and_true] at h
    have := congrArg BitVec.toNat h
    simp only [BitVec.toNat_ofNat] at this
    omega

/-- C42 is false for counter 255: its retransmission is reported as an error, so that the client sends no
acknowledgement. -/
theorem c42_wrap_refuted {s : State} (hm : s.medium = .knxnetIp) (hlast : s.seqRemote = 0)
    (l1 l2 h chan st : Byte) (m : Msg) :
    (decodeMsg (tunnelDatagram l1 l2 h chan 255 st m) s).1 = .ok (.list [.tunnelingReq 255 .sequenceNumber]) := by
  rw [c40_other hm l1 l2 h chan 255 st m (by rw [hlast]; decide), hlast]
  rfl

example : decodeAll (exState .knxnetIp) [tunnelDatagram 0 0 4 9 254 0 (cemi 0x29 [] exTelegram),
    tunnelDatagram 0 0 4 9 254 0 (cemi 0x29 [] exTelegram)] =
    [.ok (.list [.tunnelingReq 254 .noError]), .ok (.list [.tunnelingReq 254 .noError])] := by
  have := (c42_partial (s := exState .knxnetIp) rfl 254 (by decide)
    [tunnelDatagram 0 0 4 9 254 0 (cemi 0x29 [] exTelegram), tunnelDatagram 0 0 4 9 254 0 (cemi 0x29 [] exTelegram)]
    (by
      intro f hf
      simp only [List.mem_cons, List.not_mem_nil, or_false, or_self] at hf
      exact ⟨_, _, _, _, _, _, hf⟩)).1
  exact List.eq_replicate_iff.2 ⟨rfl, this⟩

example : (encodeMsg (.tunnelingAck 6 .noError) { exState .knxnetIp with seqRemote := 7 }).1 = .ok (ackFrame 0 7 0) :=
  (c42_refuted (s := { exState .knxnetIp with seqRemote := 7 }) (c := 0) rfl 6 rfl .noError).1

example : (decodeMsg (tunnelDatagram 0 0 4 9 255 0 (cemi 0x29 [] exTelegram)) { exState .knxnetIp with seqRemote := 0 }).1 =
    .ok (.list [.tunnelingReq 255 .sequenceNumber]) := c42_wrap_refuted rfl rfl 0 0 4 9 0 _

/-! ## C43 -/

theorem tunnelingReq_frame (body : Msg) (s : State) :
    (tunnelingReqDecode body s).2.seqLocal = s.seqLocal ∧ (tunnelingReqDecode body s).2.chan = s.chan := by
  unfold tunnelingReqDecode
  rcases short body with e1 | ⟨b1, m⟩
  · exact ⟨rfl, rfl⟩
  simp only
  rcases connHeader m with e1 | ⟨c, q, st, m⟩
  · exact ⟨rfl, rfl⟩
  simp only
  split_ifs
  · have := msgCode_ends m s
    generalize msgCodeDecode m s = x at this
    cases this with
    | raises e => exact ⟨rfl, rfl⟩
    | returns l => exact ⟨rfl, rfl⟩
    | frame k l b => rcases lDataDecode k s.tables l b with e | r <;> exact ⟨rfl, rfl⟩
  · exact ⟨rfl, rfl⟩
  · exact ⟨rfl, rfl⟩

theorem disconnectRes_local (body : Msg) (s : State) : (disconnectResDecode body s).2.seqLocal = s.seqLocal := by
  unfold disconnectResDecode
  repeat' (first | split | split_ifs)
  all_goals rfl

theorem connectRes_local (body : Msg) (s : State) : (connectResDecode body s).2.seqLocal = s.seqLocal := by
  unfold connectResDecode
  repeat' (first | split | split_ifs)
  all_goals rfl

theorem ackCounter_other {h v a b : Byte} (body : Msg) (hn : ¬ (h = 0x06 ∧ v = 0x10 ∧ a = 0x04 ∧ b = 0x21)) :
    ackCounter (h :: v :: a :: b :: body) = none := by
  unfold ackCounter
  split
  · rename_i he
    simp only [List.cons.injEq] at he
    obtain ⟨rfl, rfl, rfl, rfl, -⟩ := he
    rw [if_neg hn]
  · rfl

theorem local_step (s : State) (hm : s.medium = .knxnetIp) (m : Msg) :
    (decodeMsg m s).2.seqLocal = localAfter s.seqLocal (.decode m) := by
  unfold decodeMsg localAfter
  rw [hm]
  simp only
  rcases m with _ | ⟨h, _ | ⟨v, _ | ⟨a, _ | ⟨b, body⟩⟩⟩⟩
  · rfl
  · rfl
  · rfl
  · rfl
  rw [ip_dispatch]
  by_cases hack : h = 0x06 ∧ v = 0x10 ∧ a = 0x04 ∧ b = 0x21
  · obtain ⟨rfl, rfl, rfl, rfl⟩ := hack
    rw [if_pos (by decide), if_neg (by decide), if_neg (by decide), if_neg (by decide), if_neg (by decide),
      if_neg (by decide), if_pos (by decide)]
    rcases body with _ | ⟨l1, _ | ⟨l2, _ | ⟨x, _ | ⟨c, _ | ⟨q, _ | ⟨st, rest⟩⟩⟩⟩⟩⟩
    · rfl
    · rfl
    · rfl
    · rfl
    · rfl
    · rfl
    · unfold tunnelingAckDecode
      simp only [short, connHeader, octect, ackCounter, and_self, if_true, Option.some.injEq]
      have : (if s.seqLocal = q.toNat then s.setSeqLocal (s.seqLocal + 1) else s).seqLocal =
          if q.toNat = s.seqLocal then (s.seqLocal + 1) % 256 else s.seqLocal := by
        by_cases he : s.seqLocal = q.toNat
        · rw [if_pos he, if_pos he.symm]
          unfold State.setSeqLocal
          simp only
          omega
        · rw [if_neg he, if_neg fun h => he h.symm]
      rcases errorCode st.toNat with e | st' <;> exact this
  · rw [ackCounter_other body hack]
    simp only [reduceCtorEq, if_false]
    split_ifs with h1 h2 h3 h4 h5 h6 h7
    · rcases searchResDecode body with e | r <;> rfl
    · exact disconnectRes_local body s
    · exact connectRes_local body s
    · rcases connectionstateResDecode body with e | r <;> rfl
    · exact (tunnelingReq_frame body s).1
    · exact absurd ⟨h1.1, h1.2, h7.1, h7.2⟩ hack
    · rfl
    · rfl

theorem medium_after (s : State) (c : Call) : (after s c).medium = s.medium := by
  cases c with
  | encode m =>
    obtain ⟨_, _, _, _, he, -⟩ := c37_frame m s
    show (encodeMsg m s).2.medium = _
    rw [he]
  | decode m => exact (c33_tables m s).1
  | setRemote v => rfl
  | setLocal v => rfl

/-- C43: the counter for outgoing requests after any history of encoding, decoding and assignments: it moves on by one
modulo 256 exactly at each acknowledgement received that carries it. Encoding and any other message received leave it. -/
theorem c43_local {s : State} (hm : s.medium = .knxnetIp) (cs : List Call) :
    (afterAll s cs).seqLocal = cs.foldl localAfter s.seqLocal := by
  induction cs generalizing s with
  | nil => rfl
  | cons c cs ih =>
    have h1 : (after s c).seqLocal = localAfter s.seqLocal c := by
      cases c with
      | encode m =>
        obtain ⟨_, _, _, _, he, -⟩ := c37_frame m s
        show (encodeMsg m s).2.seqLocal = _
        rw [he]
        rfl
      | decode m => exact local_step s hm m
      | setRemote v => rfl
      | setLocal v => rfl
    simp only [afterAll, List.foldl_cons]
    rw [← h1]
    exact ih ((medium_after s c).trans hm)

/-- C43: an acknowledgement seen again, any number of times, moves nothing. -/
theorem c43_duplicates {s : State} (hm : s.medium = .knxnetIp) {f : Msg}
    (hf : ackCounter f = some s.seqLocal) (again : Nat) :
    (afterAll s (List.replicate (again + 1) (.decode f))).seqLocal = (s.seqLocal + 1) % 256 := by
  rw [c43_local hm, List.replicate_succ, List.foldl_cons]
  have h1 : localAfter s.seqLocal (.decode f) = (s.seqLocal + 1) % 256 := by
    simp only [localAfter]
    rw [if_pos hf]
  rw [h1]
  have h2 : localAfter ((s.seqLocal + 1) % 256) (.decode f) = (s.seqLocal + 1) % 256 := by
    simp only [localAfter]
    rw [if_neg]
    rw [hf]
    intro h
    simp only [Option.some.injEq] at h
    omega
  induction again with
  | zero => rfl
  | succ n ih => rw [List.replicate_succ, List.foldl_cons, h2, ih]

example : (afterAll (exState .knxnetIp) [.decode (ackFrame 0 0 0), .decode (ackFrame 0 0 0), .decode (ackFrame 0 7 0),
    .encode (.tunnelingAck 1 .noError), .decode (ackFrame 9 1 9)]).seqLocal = 2 := by
  rw [c43_local rfl]
  decide

example : (afterAll (exState .knxnetIp) (List.replicate 1001 (.decode (ackFrame 0 0 0)))).seqLocal = 1 :=
  c43_duplicates rfl (by decide) 1000

/-! ## C44 -/

theorem connectedTo_other {h v a b : Byte} (body : Msg) (hn : ¬ (h = 0x06 ∧ v = 0x10 ∧ a = 0x02 ∧ b = 0x06)) :
    connectedTo (h :: v :: a :: b :: body) = none := by
  unfold connectedTo
  split
  · rename_i he
    simp only [List.cons.injEq] at he
    obtain ⟨rfl, rfl, rfl, rfl, -⟩ := he
    rw [if_neg fun hx => hn ⟨hx.1, hx.2.1, hx.2.2.1, hx.2.2.2.1⟩]
  · rfl

theorem disconnected_other {h v a b : Byte} (body : Msg) (hn : ¬ (h = 0x06 ∧ v = 0x10 ∧ a = 0x02 ∧ b = 0x0A)) :
    disconnected (h :: v :: a :: b :: body) = false := by
  unfold disconnected
  split
  · rename_i he
    simp only [List.cons.injEq] at he
    obtain ⟨rfl, rfl, rfl, rfl, -⟩ := he
    exact decide_eq_false fun hx => hn ⟨hx.1, hx.2.1, hx.2.2.1, hx.2.2.2.1⟩
  · rfl

theorem toNat_zero_iff (b : Byte) : b.toNat = 0 ↔ b = 0x00 :=
  ⟨fun h => BitVec.eq_of_toNat_eq h, fun h => by rw [h]; rfl⟩

theorem connectRes_chan (body : Msg) (s : State) :
    (connectResDecode body s).2.chan = (connectedTo (0x06 :: 0x10 :: 0x02 :: 0x06 :: body)).or s.chan := by
  rcases body with _ | ⟨l1, _ | ⟨l2, _ | ⟨c, _ | ⟨st, rest⟩⟩⟩⟩
  · rfl
  · rfl
  · rfl
  · rfl
  unfold connectResDecode
  simp only [short, octect, connectedTo, true_and, toNat_zero_iff]
  rcases rest with _ | ⟨r1, _ | ⟨r2, _ | ⟨r3, _ | ⟨r4, _ | ⟨r5, _ | ⟨r6, _ | ⟨r7, _ | ⟨r8, rest⟩⟩⟩⟩⟩⟩⟩⟩
  iterate 8 simp [hpai]
  simp only [hpai, List.length_cons, octect, long, short]
  rw [if_pos (by omega)]
  simp only
  by_cases hst : st = 0x00
  · rw [if_pos hst]
    rcases rest with _ | ⟨d1, _ | ⟨d2, _ | ⟨d3, _ | ⟨d4, rest⟩⟩⟩⟩
    iterate 4 simp [crd, octect, short]
    simp only [crd, octect, short, List.length_cons]
    rw [if_pos ⟨hst, by omega⟩]
    rfl
  · rw [if_neg hst, if_neg fun h => hst h.1]
    rcases connectStatus st.toNat with e | x <;> rfl

theorem disconnectRes_chan (body : Msg) (s : State) :
    (disconnectResDecode body s).2.chan =
      if disconnected (0x06 :: 0x10 :: 0x02 :: 0x0A :: body) then some 0 else s.chan := by
  rcases body with _ | ⟨l1, _ | ⟨l2, _ | ⟨c, _ | ⟨st, rest⟩⟩⟩⟩
  · rfl
  · rfl
  · rfl
  · rfl
  unfold disconnectResDecode
  simp only [short, octect, disconnected, true_and, toNat_zero_iff, decide_eq_true_eq]
  split_ifs <;> rfl

theorem tunnelingAck_chan (body : Msg) (s : State) : (tunnelingAckDecode body s).2.chan = s.chan := by
  unfold tunnelingAckDecode
  rcases short body with e1 | ⟨b1, m⟩ <;> simp only
  rcases connHeader m with e1 | ⟨c, q, st, m⟩ <;> simp only
  rcases errorCode st with e1 | st <;> simp only <;> split_ifs <;> rfl

theorem channel_step (s : State) (hm : s.medium = .knxnetIp) (m : Msg) :
    (decodeMsg m s).2.chan = channelAfter s.chan (.decode m) := by
  unfold decodeMsg
  rw [hm]
  simp only [channelAfter]
  rcases m with _ | ⟨h, _ | ⟨v, _ | ⟨a, _ | ⟨b, body⟩⟩⟩⟩
  · rfl
  · rfl
  · rfl
  · rfl
  rw [ip_dispatch]
  by_cases hc : h = 0x06 ∧ v = 0x10 ∧ a = 0x02 ∧ b = 0x06
  · obtain ⟨rfl, rfl, rfl, rfl⟩ := hc
    rw [if_pos (by decide), if_neg (by decide), if_neg (by decide), if_pos (by decide), connectRes_chan,
      disconnected_other body (by decide)]
    rcases connectedTo (0x06 :: 0x10 :: 0x02 :: 0x06 :: body) with _ | n <;> rfl
  · rw [connectedTo_other body hc]
    by_cases hd : h = 0x06 ∧ v = 0x10 ∧ a = 0x02 ∧ b = 0x0A
    · obtain ⟨rfl, rfl, rfl, rfl⟩ := hd
      rw [if_pos (by decide), if_neg (by decide), if_pos (by decide), disconnectRes_chan]
    · rw [disconnected_other body hd]
      simp only [Bool.false_eq_true, if_false]
      split_ifs with h1 h2 h3 h4 h5 h6 h7
      · rcases searchResDecode body with e | r <;> rfl
      · exact absurd ⟨h1.1, h1.2, h3.1, h3.2⟩ hd
      · exact absurd ⟨h1.1, h1.2, h4.1, h4.2⟩ hc
      · rcases connectionstateResDecode body with e | r <;> rfl
      · exact (tunnelingReq_frame body s).2
      · exact tunnelingAck_chan body s
      · rfl
      · rfl

/-- C44: the channel after any history of encoding, decoding and assignments to the counters: that of the last successful
connect response, or 0 if a successful disconnect response came after it; nothing else changes it. -/
theorem c44_channel {s : State} (hm : s.medium = .knxnetIp) (cs : List Call) :
    (afterAll s cs).chan = cs.foldl channelAfter s.chan := by
  induction cs generalizing s with
  | nil => rfl
  | cons c cs ih =>
    have h1 : (after s c).chan = channelAfter s.chan c := by
      cases c with
      | encode m =>
        obtain ⟨_, _, _, _, he, -⟩ := c37_frame m s
        show (encodeMsg m s).2.chan = _
        rw [he]
        rfl
      | decode m => exact channel_step s hm m
      | setRemote v => rfl
      | setLocal v => rfl
    simp only [afterAll, List.foldl_cons]
    rw [← h1]
    exact ih ((medium_after s c).trans hm)

namespace Spec

/-- A tunnelling request with the channel and the counter of a state. -/
def Tunnelled (s : State) (f : Msg) : Prop :=
  ∃ c m, s.chan = some c ∧ f = tunnelRequest (BitVec.ofNat 8 c) (BitVec.ofNat 8 s.seqLocal) m

end Spec

theorem link_tunnelled {s : State} {f m : Msg} (hm : s.medium = .knxnetIp) (h : linkEncode .req s m = .ok f) :
    Tunnelled s f := by
  unfold linkEncode at h
  rcases ht : s.addressType with _ | t
  · rw [ht] at h; cases h
  rw [ht] at h
  simp only [cemiEncode] at h
  unfold cemiReqEncode at h
  rw [hm] at h
  simp only at h
  unfold tunnelingReqEncode connectionHeader at h
  rcases hc : s.chan with _ | c
  · rw [hc] at h; cases h
  rw [hc] at h
  simp only [Except.ok.injEq] at h
  subst h
  generalize [octetOf 0x11, octetOf 0] ++ ([(LData.default.setAddressType t).cntrl1, (LData.default.setAddressType t).cntrl2]
    ++ shortOctets 0 ++ m) = x
  refine ⟨c, x, hc, ?_⟩
  unfold tunnelRequest ipHeaderEncode
  rw [shortOctets_ofNat, octetOf_ofNat, octetOf_ofNat, Nat.add_comm (4 + 6)]
  rfl

theorem group_tunnelled {s : State} {f m : Msg} (hm : s.medium = .knxnetIp) (h : nDataGroupEncode .req s m = .ok f) :
    Tunnelled s f := by
  unfold nDataGroupEncode at h
  rcases ht : s.getAddresses with e | _ | ⟨a, as⟩ <;> rw [ht] at h
  · cases h
  · exact link_tunnelled hm h
  · exact link_tunnelled hm h

theorem tGroup_tunnelled {s : State} {f m : Msg} (hm : s.medium = .knxnetIp) (h : tDataGroupEncode .req s m = .ok f) :
    Tunnelled s f := by
  unfold tDataGroupEncode at h
  rcases ht : s.getTsaps with e | _ | ⟨a, as⟩ <;> rw [ht] at h
  · cases h
  · exact group_tunnelled hm h
  · simp only at h
    rcases hp : s.apci with _ | p <;> rw [hp] at h
    · cases h
    · exact group_tunnelled hm h

theorem individual_tunnelled {s : State} {f m : Msg} (hm : s.medium = .knxnetIp)
    (ht : s.addressType = some .individual) (h : tDataIndividualEncode s m = .ok f) : Tunnelled s f := by
  unfold tDataIndividualEncode at h
  rw [if_pos ht] at h
  rcases hp : s.apci with _ | p <;> rw [hp] at h
  · cases h
  · simp only at h
    unfold nDataIndividualEncode at h
    rcases hi : s.tables.individualAddress with e | ia <;> rw [hi] at h
    · cases h
    · exact link_tunnelled hm h

/-- C44, C43: every application request encoded for KNXnet/IP is a tunnelling request that carries the channel and the
counter of the state. -/
theorem c44_requests {s : State} {m : InMsg} {f : Msg} (h : (encodeMsg m s).1 = .ok f)
    (hc : carrier s m = .tunnelled) : Tunnelled s f := by
  have hm : s.medium = .knxnetIp := by
    cases m <;> simp only [carrier, reduceCtorEq] at hc <;> split at hc <;> first | assumption | cases hc
  cases m with
  | connectReq => cases hc
  | disconnectReq => cases hc
  | connectionstateReq => cases hc
  | searchReq => cases hc
  | tunnelingAck => cases hc
  | groupWriteInd => cases hc
  | groupRead asap =>
    obtain ⟨c, x, h1, h2⟩ := tGroup_tunnelled (s := { s with apci := some 0, asap := some asap, addressType := some .group }) hm h
    exact ⟨c, x, h1, h2⟩
  | groupWriteReq asap d =>
    change (groupWriteEncode .req asap d s).1 = _ at h
    unfold groupWriteEncode at h
    simp only at h
    split at h
    · cases h
    · obtain ⟨c, x, h1, h2⟩ := tGroup_tunnelled
        (s := { s with asap := some asap, apci := some 0x80, addressType := some .group }) hm h
      exact ⟨c, x, h1, h2⟩
  | propertyRead asap oi pid n si =>
    obtain ⟨c, x, h1, h2⟩ := individual_tunnelled
      (s := { s with asap := some asap, apci := some 0x3D5, addressType := some .individual }) hm rfl h
    exact ⟨c, x, h1, h2⟩
  | propertyWrite asap oi pid n si data =>
    change (propertyWriteEncode asap oi pid n si data s).1 = _ at h
    unfold propertyWriteEncode at h
    simp only at h
    split at h
    · cases h
    · obtain ⟨c, x, h1, h2⟩ := individual_tunnelled
        (s := { s with asap := some asap, apci := some 0x3D7, addressType := some .individual }) hm rfl h
      exact ⟨c, x, h1, h2⟩

/-- C44: acknowledgements, disconnect requests and connection state requests carry the channel of the state too. -/
theorem c44_others {s : State} {f : Msg} :
    (∀ seq status, (encodeMsg (.tunnelingAck seq status) s).1 = .ok f →
      ∃ c, s.chan = some c ∧ f[7]? = some (BitVec.ofNat 8 c)) ∧
    (∀ ip port, (encodeMsg (.disconnectReq ip port) s).1 = .ok f → ∃ c, s.chan = some c ∧ f[6]? = some (BitVec.ofNat 8 c)) ∧
    ∀ ip port, (encodeMsg (.connectionstateReq ip port) s).1 = .ok f →
      ∃ c, s.chan = some c ∧ f[6]? = some (BitVec.ofNat 8 c) := by
  refine ⟨fun seq status h => ?_, fun ip port h => ?_, fun ip port h => ?_⟩
  · rcases hc : s.chan with _ | c
    · change (tunnelingAckEncode seq status s).1 = _ at h
      unfold tunnelingAckEncode connectionHeader at h
      rw [hc] at h
      cases h
    · rw [ack_encode hc] at h
      cases h
      exact ⟨c, rfl, rfl⟩
  · change channelReqEncode 0x0209 s ip port = _ at h
    unfold channelReqEncode at h
    rcases hc : s.chan with _ | c <;> rw [hc] at h
    · cases h
    · cases h
      exact ⟨c, rfl, congrArg some (octetOf_ofNat c)⟩
  · change channelReqEncode 0x0207 s ip port = _ at h
    unfold channelReqEncode at h
    rcases hc : s.chan with _ | c <;> rw [hc] at h
    · cases h
    · cases h
      exact ⟨c, rfl, congrArg some (octetOf_ofNat c)⟩

example : (afterAll (exState .knxnetIp) [.decode [6, 0x10, 2, 6, 0, 20, 77, 0, 8, 1, 0, 0, 0, 0, 0, 0, 4, 4, 0, 0],
    .decode [6, 0x10, 2, 6, 0, 20, 78, 0x24, 8, 1, 0, 0, 0, 0, 0, 0, 4, 4, 0, 0], .setLocal 5,
    .encode (.tunnelingAck 1 .noError)]).chan = some 77 := by
  rw [c44_channel rfl]
  decide

example : Tunnelled (exState .knxnetIp) (tunnelRequest 0 0 (cemi 0x11 [] (writeTelegram 0x0E89 .float16 0x0C3D))) :=
  c44_requests (m := .groupWriteReq ⟨7, none⟩ ⟨.float16, 0x0C3D⟩) (by decide) rfl

example : (encodeMsg (.disconnectReq 0x0A000001 3671) (exState .knxnetIp)).1 =
    .ok [6, 0x10, 2, 9, 0, 16, 0, 0, 8, 1, 10, 0, 0, 1, 0x0E, 0x57] := by decide

/-! ## C45 -/

theorem shortOctets_mod (n : Int) : shortOctets n = octetsOf 2 (n % 65536).toNat := by
  rw [← shortOctets_ofNat]
  have : trunc 16 n = trunc 16 ((n % 65536).toNat : Int) := by
    unfold trunc
    simp only [Nat.reducePow]
    omega
  unfold shortOctets
  rw [this]

theorem hpai_create (ip : BitVec 32) (port : Int) (rest : Msg) :
    hpai (hpaiCreate ip port ++ rest) = .ok (ip.toNat, (port % 65536).toNat, rest) := by
  have hl : 8 ≤ (hpaiCreate ip port ++ rest).length := by
    rw [List.length_append, hpai_length]
    omega
  unfold hpai
  rw [if_pos hl]
  unfold hpaiCreate
  rw [longOctets_ofNat, shortOctets_mod]
  simp only [List.cons_append, List.nil_append, octect, List.append_assoc]
  rw [long_octetsOf ip.isLt]
  simp only
  rw [short_octetsOf (by omega)]

theorem hpaiCreate_eq (ip : BitVec 32) (port : Int) : hpaiCreate ip port = endpoint ip port := by
  unfold hpaiCreate endpoint
  rw [longOctets_ofNat, shortOctets_mod]
  rfl

/-- C45: a connect request is the standard header (service 0x0205, 26 octets), the control endpoint, the data endpoint and
the request for a tunnel on the link layer; the endpoint parser recovers both endpoints, the ports modulo 2^16. -/
theorem c45_connect (ctlIp dataIp : BitVec 32) (ctlPort dataPort : Int) (s : State) :
    ∃ f rest, (encodeMsg (.connectReq ctlIp ctlPort dataIp dataPort) s).1 = .ok f ∧ f.length = 26 ∧
      f = [0x06, 0x10, 0x02, 0x05, 0x00, 0x1A] ++ endpoint ctlIp ctlPort ++ endpoint dataIp dataPort ++
        [0x04, 0x04, 0x02, 0x00] ∧
      hpai (f.drop 6) = .ok (ctlIp.toNat, (ctlPort % 65536).toNat, rest) ∧
      hpai rest = .ok (dataIp.toNat, (dataPort % 65536).toNat, [0x04, 0x04, 0x02, 0x00]) ∧
      cri [0x04, 0x04, 0x02, 0x00] = .ok (4, 2, []) := by
  refine ⟨connectReqEncode ctlIp ctlPort dataIp dataPort, hpaiCreate dataIp dataPort ++ [0x04, 0x04, 0x02, 0x00], rfl,
    ?_, ?_, ?_, hpai_create _ _ _, by decide⟩
  · unfold connectReqEncode ipHeaderEncode shortOctets
    simp [hpai_length]
  · rw [← hpaiCreate_eq, ← hpaiCreate_eq]
    rfl
  · rw [← hpai_create]
    rfl

/-- C45: connection state (0x0207) and disconnect (0x0209) requests are the standard header (16 octets), the channel, a zero
and the control endpoint; the endpoint parser recovers it. -/
theorem c45_channel (ip : BitVec 32) (port : Int) {s : State} {c : Nat} (hc : s.chan = some c) :
    ∃ f g, (encodeMsg (.connectionstateReq ip port) s).1 = .ok f ∧ (encodeMsg (.disconnectReq ip port) s).1 = .ok g ∧
      f.length = 16 ∧ g.length = 16 ∧
      f = [0x06, 0x10, 0x02, 0x07, 0x00, 0x10, BitVec.ofNat 8 c, 0x00] ++ endpoint ip port ∧
      g = [0x06, 0x10, 0x02, 0x09, 0x00, 0x10, BitVec.ofNat 8 c, 0x00] ++ endpoint ip port ∧
      hpai (f.drop 8) = .ok (ip.toNat, (port % 65536).toNat, []) ∧
      hpai (g.drop 8) = .ok (ip.toNat, (port % 65536).toNat, []) := by
  have h1 := hpai_create ip port []
  rw [List.append_nil] at h1
  have he : ∀ service, channelReqEncode service s ip port = .ok (ipHeaderEncode (shortOctets service ++
      shortOctets (2 + 8 + 6) ++ [BitVec.ofNat 8 c, octetOf 0] ++ hpaiCreate ip port)) := by
    intro service
    unfold channelReqEncode
    rw [hc]
    simp only [octetOf_ofNat]
  refine ⟨_, _, he 0x0207, he 0x0209, ?_, ?_, ?_, ?_, h1, h1⟩
  · unfold ipHeaderEncode shortOctets
    simp [hpai_length]
  · unfold ipHeaderEncode shortOctets
    simp [hpai_length]
  · rw [← hpaiCreate_eq]
    rfl
  · rw [← hpaiCreate_eq]
    rfl

/-- C45: a search request is the standard header (service 0x0201, 14 octets) and the discovery endpoint; the endpoint parser
recovers it. -/
theorem c45_search (ip : BitVec 32) (port : Int) (s : State) :
    ∃ f, (encodeMsg (.searchReq ip port) s).1 = .ok f ∧ f.length = 14 ∧
      f = [0x06, 0x10, 0x02, 0x01, 0x00, 0x0E] ++ endpoint ip port ∧
      hpai (f.drop 6) = .ok (ip.toNat, (port % 65536).toNat, []) := by
  have h1 := hpai_create ip port []
  rw [List.append_nil] at h1
  refine ⟨searchReqEncode ip port, rfl, ?_, ?_, h1⟩
  · unfold searchReqEncode ipHeaderEncode shortOctets
    simp [hpai_length]
  · rw [← hpaiCreate_eq]
    rfl

/-- C45: the connect response decoder reads channel, endpoint and individual address where they are. -/
theorem c45_response {ip port : Nat} (hi : ip < 2 ^ 32) (hp : port < 2 ^ 16) {s : State} (hm : s.medium = .knxnetIp)
    (l1 l2 chan x y d1 d2 : Byte) (ia : BitVec 16) (rest : Msg) :
    decodeMsg (datagram 0x02 0x06 l1 l2
      ([chan, 0x00, x, y] ++ (octetsOf 4 ip ++ (octetsOf 2 port ++ ([d1, d2] ++ (octetsOf 2 ia.toNat ++ rest)))))) s =
      (.ok (.list [.connectRes ip port (some ia) .noError]), { s with chan := some chan.toNat }) := by
  unfold decodeMsg
  rw [hm]
  simp only [datagram, List.cons_append, List.nil_append]
  rw [ip_dispatch, if_pos (by decide), if_neg (by decide), if_neg (by decide), if_pos (by decide)]
  unfold connectResDecode
  simp only [short, octect]
  unfold hpai
  rw [if_pos (by simp only [List.length_cons, List.length_append, octetsOf_length]; omega)]
  simp only [octect]
  rw [long_octetsOf hi]
  simp only
  rw [short_octetsOf hp]
  simp only
  unfold crd
  simp only [octect]
  rw [short_octetsOf ia.isLt]
  simp only [BitVec.ofNat_toNat, BitVec.setWidth_eq]
  rw [← hm]
  rfl

example : (encodeMsg (.connectReq 0xC0A80001 (-1) 0xC0A80001 70000) (State.init .knxnetIp none none)).1 =
    .ok [6, 0x10, 2, 5, 0, 0x1A, 8, 1, 192, 168, 0, 1, 255, 255, 8, 1, 192, 168, 0, 1, 0x11, 0x70, 4, 4, 2, 0] := by decide

example : ∃ s : State, s.chan = some 0 ∧ (encodeMsg (.connectionstateReq 0xC0A80001 3671) s).1 =
    .ok [6, 0x10, 2, 7, 0, 16, 0, 0, 8, 1, 192, 168, 0, 1, 0x0E, 0x57] := ⟨exState .knxnetIp, rfl, by decide⟩

example : decodeMsg [6, 0x10, 2, 6, 0, 20, 7, 0, 8, 1, 192, 168, 0, 1, 0x0E, 0x57, 4, 4, 0x11, 1] (exState .knxnetIp) =
    (.ok (.list [.connectRes 0xC0A80001 3671 (some 0x1101) .noError]), { exState .knxnetIp with chan := some 7 }) :=
  c45_response (ip := 0xC0A80001) (port := 3671) (by decide) (by decide) rfl 0 20 7 8 1 4 4 0x1101 []

end Knx
