import Verif.Props.Replies

/-! # C64: acknowledging the server's requests -/

namespace Knx
open Spec Client

namespace Spec

/-- Requests numbered consecutively from `q`. -/
def numbered (chan : Byte) : Byte → List Msg → List Msg
  | _, [] => []
  | q, m :: ms => tunnelRequest chan q m :: numbered chan (q + 1) ms

/-- Their acknowledgements. -/
def acknowledged (chan : Nat) : Byte → List Msg → List Msg
  | _, [] => []
  | q, _ :: ms => ackFrame chan q.toNat 0 :: acknowledged chan (q + 1) ms

end Spec

/-- C64, for requests that arrive once and whose acknowledgements arrive: a client acknowledges consecutive requests with
consecutive counters, each request with its own, for any number of requests. Missing from the full claim: repeated requests
(`c64_refuted`). -/
theorem c64_partial {c : Client} (hm : c.state.medium = .knxnetIp) {n : Nat} (hc : c.state.chan = some n)
    (ht : c.transport = true) {q : Byte} (hq : c.state.seqRemote = q.toNat) (chan : Byte) {ms : List Msg}
    (hd : ∀ m ∈ ms, ∃ l, Delivers c.state m l) :
    (Client.run c ((numbered chan q ms).map .datagram)).wire = c.wire ++ acknowledged n q ms := by
  have key : ∀ (ms : List Msg) (s : State) (c : Client) (q : Byte), Ready s c → c.state.chan = some n → c.transport = true →
      c.state.seqRemote = q.toNat → (∀ m ∈ ms, ∃ l, Delivers s m l) →
      (Client.run c ((numbered chan q ms).map .datagram)).wire = c.wire ++ acknowledged n q ms := by
    intro ms
    induction ms with
    | nil => exact fun s c q _ _ _ _ _ => (List.append_nil _).symm
    | cons m ms ih =>
      intro s c q hr hc ht hq hd
      obtain ⟨l, hl⟩ := hd m List.mem_cons_self
      have he := tunnelRequest_eq chan q m
      obtain ⟨r1, -, r3⟩ := new_step hr (BitVec.ofNat 8 ((m.length + 10) / 256)) (BitVec.ofNat 8 (m.length + 10)) 4 chan q 0
        hl hq
      obtain ⟨w1, -, -, w4⟩ := c61_request hr.medium hc ht (BitVec.ofNat 8 ((m.length + 10) / 256))
        (BitVec.ofNat 8 (m.length + 10)) 4 chan q 0 m
      have hok := hl c.state hr.medium hr.assoc hr.got (tunnelRequest chan q m) _ (.ip chan q hr.medium hq)
      rw [← he] at r1 r3 w1 w4
      rw [if_pos hq, hok] at w1
      have htr : (Client.step c (.datagram (tunnelRequest chan q m))).transport = true := by
        show (datagramReceived (tunnelRequest chan q m) c).2.transport = true
        rw [datagram_eq]
        rcases decodeMsg (tunnelRequest chan q m) c.state with ⟨e | r, s'⟩
        · exact ht
        · exact (handleAll_effect r { c with state := s', decoded := c.decoded ++ messages r }).1.2.1.trans ht
      have := ih s _ (q + 1) r1 (w4.trans hc) htr r3 fun m hm => hd m (List.mem_cons_of_mem _ hm)
      show (Client.run (Client.step c (.datagram (tunnelRequest chan q m)))
        ((numbered chan (q + 1) ms).map .datagram)).wire = _
      rw [this, w1, List.append_assoc]
      rfl
  exact key ms c.state c q ⟨hm, rfl, rfl, by rw [hc]; simp⟩ hc ht hq hd

/-- C64 is false, for every counter and every number of repetitions: when a request has been accepted and its acknowledgement
lost, none of the datagrams the client sends for the repetitions acknowledges it. -/
theorem c64_refuted {c : Client} (hm : c.state.medium = .knxnetIp) {n : Nat} (hc : c.state.chan = some n)
    (ht : c.transport = true) {q : Byte} (hlast : c.state.seqRemote = (q.toNat + 1) % 256) {ds : List Msg}
    (hd : ∀ d ∈ ds, ∃ l1 l2 h chan st m, d = tunnelDatagram l1 l2 h chan q st m) :
    ∃ new, (Client.run c (ds.map .datagram)).wire = c.wire ++ new ∧ ∀ f ∈ new, ackCounter f ≠ some q.toNat := by
  have hq := q.isLt
  induction ds generalizing c with
  | nil => exact ⟨[], (List.append_nil _).symm, by simp⟩
  | cons d ds ih =>
    obtain ⟨l1, l2, h, chan, st, m, rfl⟩ := hd d List.mem_cons_self
    obtain ⟨w1, w2, -, w4⟩ := c61_request hm hc ht l1 l2 h chan q st m
    have hne : ¬ c.state.seqRemote = q.toNat := by omega
    rw [if_neg hne] at w1 w2
    have htr : (Client.step c (.datagram (tunnelDatagram l1 l2 h chan q st m))).transport = true := by
      show (datagramReceived (tunnelDatagram l1 l2 h chan q st m) c).2.transport = true
      rw [datagram_eq]
      rcases decodeMsg (tunnelDatagram l1 l2 h chan q st m) c.state with ⟨e | r, s'⟩
      · exact ht
      · exact (handleAll_effect r { c with state := s', decoded := c.decoded ++ messages r }).1.2.1.trans ht
    obtain ⟨new, i1, i2⟩ := ih (c := Client.step c (.datagram (tunnelDatagram l1 l2 h chan q st m)))
      ((step_medium c _).trans hm) (w4.trans hc) htr (w2.trans hlast) fun d h => hd d (List.mem_cons_of_mem _ h)
    refine ⟨(if c.state.seqRemote = q.toNat + 1 then [ackFrame n (q.toNat + 1) 0] else []) ++ new, ?_, ?_⟩
    · show (Client.run (Client.step c (.datagram (tunnelDatagram l1 l2 h chan q st m))) (ds.map .datagram)).wire = _
      rw [i1, w1, List.append_assoc]
    · intro f hf
      rcases List.mem_append.1 hf with hf | hf
      · split_ifs at hf with hs
        · rw [List.mem_singleton.1 hf]
          unfold ackCounter ackFrame
          simp only [true_and, if_true, BitVec.toNat_ofNat, ne_eq, Option.some.injEq]
          omega
        · simp at hf
      · exact i2 f hf

example : (Client.run exClient ((numbered 0 255 [cemi 0x29 [3, 4, 5] exTelegram, cemi 0x29 [3, 4, 5] exTelegram]).map
    .datagram)).wire = [ackFrame 0 255 0, ackFrame 0 0 0] := by
  refine c64_partial (c := exClient) rfl (n := 0) rfl rfl (q := 255) rfl 0 ?_
  have hd : Delivers exClient.state (cemi 0x29 [3, 4, 5] exTelegram)
      [.group .write .ind ⟨3, none⟩ ⟨.switch, 0x65⟩, .group .write .ind ⟨7, none⟩ ⟨.float16, 0x0C65⟩] := by
    intro s' hm ha hg f pre hc
    refine (c29_fanout_partial (s := s') (t := exTelegram) (vs := [7, 3]) (k := .ind) (info := [3, 4, 5]) ha hg (by
      show 128 ≤ _; decide) (by show _ < 4; decide) (by decide) (by decide) ?_ (by decide) (by decide) hc
      (svc := .write) (by decide) (by decide)).1
    exact c08_exclusive_partial exAt exOps (by decide) (by decide) (by decide) _
  intro m hm
  simp only [List.mem_cons, List.not_mem_nil, or_false, or_self] at hm
  exact ⟨_, hm ▸ hd⟩

example : ∃ new, (Client.run { exClient with state := { exClient.state with seqRemote := 7 } }
    ((List.replicate 9 (tunnelDatagram 0 0 4 0 6 0 (cemi 0x29 [] exTelegram))).map .datagram)).wire = [] ++ new ∧
    ∀ f ∈ new, ackCounter f ≠ some 6 :=
  c64_refuted (c := { exClient with state := { exClient.state with seqRemote := 7 } }) rfl (n := 0) rfl rfl (q := 6) rfl
    fun _ hd => ⟨_, _, _, _, _, _, List.eq_of_mem_replicate hd⟩

end Knx
