import Verif.Spec.Discovery
import Verif.Props.Client
import Verif.Props.Responses

/-! # C67: discovery -/

namespace Knx
open Spec

/-- C67, the question: exactly the search request with the given endpoint is sent. -/
theorem c67_request (ip : BitVec 32) (port : Int) : discoveryRequest ip port = .ok (searchRequest ip port) := by
  have h : encodeMsg (.searchReq ip port) discoveryState = (.ok (searchRequest ip port), discoveryState) := by
    show (Except.ok (searchReqEncode ip port), discoveryState) = _
    refine congrArg (fun x => (Except.ok x, discoveryState)) ?_
    unfold searchReqEncode searchRequest hpaiCreate ipHeaderEncode
    rw [shortOctets_mod port, longOctets_ofNat]
    rfl
  unfold discoveryRequest
  rw [h]
  exact c49_hex _

theorem listened_medium (ds : List Msg) : (listenedTo ds).medium = .knxnetIp := by
  have key : ∀ (ds : List Msg) (s : State), s.medium = .knxnetIp →
      (ds.foldl (fun s d => (discoveryReceived d s).2) s).medium = .knxnetIp := by
    intro ds
    induction ds with
    | nil => exact fun s h => h
    | cons d ds ih =>
      intro s h
      rw [List.foldl_cons]
      refine ih _ ?_
      unfold discoveryReceived Py.bind
      rw [c01_lower_parse]
      exact (c33_tables d s).1.trans h
  exact key ds discoveryState rfl

/-- What is logged for a search response. -/
theorem search_response (ds : List Msg) (ip : BitVec 32) (port : BitVec 16) (medium status : Byte) (address : BitVec 16)
    (more : Msg) : discoveryReceived (searchResponse ip port medium status address more) (listenedTo ds) =
      (.ok (.list [.searchRes ip.toNat port.toNat (256 * medium.toNat + status.toNat)]), listenedTo ds) := by
  unfold discoveryReceived Py.bind
  rw [c01_lower_parse]
  show decodeMsg (searchResponse ip port medium status address more) (listenedTo ds) = _
  unfold searchResponse
  simp only
  generalize hb : [0x08, 0x01] ++ octetsOf 4 ip.toNat ++ octetsOf 2 port.toNat ++ [0x36, 0x01, medium, status] ++
    octetsOf 2 address.toNat ++ more = body
  rw [octetsOf_two]
  have h := c60_search (BitVec.ofNat 8 ((body.length + 6) / 256)) (BitVec.ofNat 8 (body.length + 6)) body (listened_medium ds)
  unfold datagram at h
  refine Eq.trans (by rfl) (h.trans ?_)
  rw [← hb]
  have h4 := number_octetsOf 4 ip.toNat
  have h2 := number_octetsOf 2 port.toNat
  rw [octetsOf_four] at h4 ⊢
  rw [octetsOf_two] at h2 ⊢
  simp only [List.cons_append, List.nil_append, searchAnswer, answer, h4, h2]
  rw [show ip.toNat % 256 ^ 4 = ip.toNat from Nat.mod_eq_of_lt ip.isLt,
    show port.toNat % 256 ^ 2 = port.toNat from Nat.mod_eq_of_lt port.isLt]
  simp [number]

/-- What holds of C67: whatever the listener received before, the response of a standard server is reported with the
server's control endpoint, and nothing else happens. Missing from the full claim: its individual address
(`c67_refuted`). -/
theorem c67_partial (ds : List Msg) (ip : BitVec 32) (port : BitVec 16) (medium status : Byte) (address : BitVec 16)
    (more : Msg) : ∃ a, discoveryReceived (searchResponse ip port medium status address more) (listenedTo ds) =
      (.ok (.list [.searchRes ip.toNat port.toNat a]), listenedTo ds) :=
  ⟨_, search_response ds ip port medium status address more⟩

/-- C67 is false: the reported individual address consists of the KNX medium and the device status, whatever the server's
individual address. It is the server's just if these happen to be equal. -/
theorem c67_refuted (ds : List Msg) (ip : BitVec 32) (port : BitVec 16) (medium status : Byte) (address : BitVec 16)
    (more : Msg) : (discoveryReceived (searchResponse ip port medium status address more) (listenedTo ds)).1 =
      .ok (.list [.searchRes ip.toNat port.toNat address.toNat]) ↔ 256 * medium.toNat + status.toNat = address.toNat := by
  rw [search_response]
  simp

example : discoveryRequest 0xAC1F0A6F 5544 =
    .ok [0x06, 0x10, 0x02, 0x01, 0, 0x0E, 8, 1, 0xAC, 0x1F, 0x0A, 0x6F, 0x15, 0xA8] := by
  rw [c67_request]
  decide

/-- The response in the documentation of `search.res.decode`: the individual address 15.15.255 is reported as 0x0200. -/
example : searchResponse 0xAC1F0AFA 3671 0x02 0x00 0xFFFF [0, 0, 0, 1] =
    [0x06, 0x10, 0x02, 0x02, 0, 0x18, 8, 1, 0xAC, 0x1F, 0x0A, 0xFA, 0x0E, 0x57, 0x36, 0x01, 0x02, 0x00, 0xFF, 0xFF, 0, 0, 0, 1] := by
  decide

example : (discoveryReceived (searchResponse 0xAC1F0AFA 3671 0x02 0x00 0xFFFF [0, 0, 0, 1])
    (listenedTo [[], [6, 16, 2, 6, 0, 0, 9, 0, 0, 0, 1, 2, 3, 4, 5, 6, 7, 8, 9, 10]])).1 =
    .ok (.list [.searchRes 0xAC1F0AFA 3671 0x0200]) := by
  rw [search_response]
  rfl

example : (discoveryReceived (searchResponse 0xAC1F0AFA 3671 0x02 0x00 0xFFFF []) (listenedTo [])).1 ≠
    .ok (.list [.searchRes 0xAC1F0AFA 3671 0xFFFF]) :=
  fun h => absurd ((c67_refuted [] 0xAC1F0AFA 3671 0x02 0x00 0xFFFF []).1 h) (by decide)

end Knx
