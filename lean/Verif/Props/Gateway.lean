import Verif.Props.Replies
import Verif.Spec.Gateway

/-! # C62, C63: the client and a server -/

namespace Knx
open Spec Client

/-- The parts of a state that concern outgoing requests. -/
structure Alike (s t : State) : Prop where
  medium : t.medium = s.medium
  chan : t.chan = s.chan
  counter : t.seqLocal = s.seqLocal
  assoc : t.assoc = s.assoc
  got : t.got = s.got

theorem Alike.refl (s : State) : Alike s s := ⟨rfl, rfl, rfl, rfl, rfl⟩

theorem Alike.trans {s t u : State} (h : Alike s t) (h' : Alike t u) : Alike s u :=
  ⟨h'.1.trans h.1, h'.2.trans h.2, h'.3.trans h.3, h'.4.trans h.4, h'.5.trans h.5⟩

theorem encode_alike (m : InMsg) (s : State) : Alike s (encodeMsg m s).2 := by
  obtain ⟨_, _, _, _, he, -⟩ := c37_frame m s
  rw [he]
  exact ⟨rfl, rfl, rfl, rfl, rfl⟩

theorem send_alike (m : InMsg) (c : Client) : Alike c.state (encodeAndSend m c).2.state := by
  have h := encode_alike m c.state
  rw [encodeAndSend_eq]
  generalize encodeMsg m c.state = x at h
  rcases x with ⟨e | f, s⟩
  · exact h
  · simp only
    split_ifs <;> exact h

theorem handle_alike (m : OutMsg) (c : Client) : Alike c.state (handle m c).2.state := by
  cases m with
  | connectRes ip port ia st =>
    unfold handle
    simp only [Py.bind, Py.modify]
    have h1 := send_alike (.connectionstateReq c.localAddr c.localPort) { c with state := c.state.setSeqRemote 0 }
    have h0 : Alike c.state (c.state.setSeqRemote 0) := ⟨rfl, rfl, rfl, rfl, rfl⟩
    generalize encodeAndSend (.connectionstateReq c.localAddr c.localPort)
      { c with state := c.state.setSeqRemote 0 } = x at h1
    rcases x with ⟨e | f, s⟩
    · exact h0.trans h1
    · exact h0.trans h1
  | tunnelingReq seq st =>
    unfold handle
    simp only
    split_ifs
    · exact send_alike _ _
    · exact .refl _
  | _ => exact .refl _

theorem forEach_alike (l : List OutMsg) (c : Client) : Alike c.state (Py.forEach l handle c).2.state := by
  induction l generalizing c with
  | nil => exact .refl _
  | cons m l ih =>
    unfold Py.forEach Py.bind
    have h1 := handle_alike m c
    generalize handle m c = x at h1
    rcases x with ⟨e | r, d⟩
    · exact h1
    · exact h1.trans (ih d)

theorem datagram_alike (d : Msg) (c : Client) :
    Alike (decodeMsg d c.state).2 (Client.step c (.datagram d)).state := by
  have hw : Client.step c (.datagram d) = (datagramReceived d c).2 := rfl
  rw [hw, datagram_eq]
  rcases decodeMsg d c.state with ⟨e | r, s⟩
  · exact .refl _
  · cases r with
    | none => exact .refl _
    | tuple l => exact .refl _
    | list l => exact forEach_alike l { c with state := s, decoded := c.decoded ++ messages (.list l) }

theorem write_alike (m : InMsg) (c : Client) : Alike c.state (Client.step c (.write m)).state := by
  show Alike c.state (write m c).2.state
  unfold write
  split_ifs
  · simp only [Py.bind, Py.lift]
    rcases formatIn m with e | u
    · exact .refl _
    · exact send_alike m c
  · exact .refl _

theorem made_alike (c : Client) : Alike c.state (Client.step c .made).state := by
  show Alike c.state (connectionMade c).2.state
  unfold connectionMade
  simp only [Py.bind, Py.modify]
  exact send_alike _ { c with transport := true }

/-- A datagram apart from the connection leaves counter and channel. -/
theorem apart_alike {c : Client} (hm : c.state.medium = .knxnetIp) {e : Client.Event} (he : Apart (.client e)) :
    Alike c.state (Client.step c e).state := by
  cases e with
  | made => exact made_alike c
  | lost => exact .refl _
  | write m => exact write_alike m c
  | datagram d =>
    refine Alike.trans ?_ (datagram_alike d c)
    obtain ⟨h1, h2, h3⟩ := he
    have ht := c33_tables d c.state
    refine ⟨ht.1, ?_, ?_, ht.2.1, ht.2.2⟩
    · have := c44_channel hm [.decode d]
      simp only [afterAll, List.foldl, after, channelAfter, h2, h3] at this
      simpa using this
    · have := c43_local hm [.decode d]
      simp only [afterAll, List.foldl, after, localAfter, h1] at this
      simpa using this

theorem requestOf_head {f : Msg} {b : Byte} (h : f.head? = some b) (hb : b ≠ 0x06) : requestOf f = none := by
  rcases f with _ | ⟨x, f⟩
  · cases h
  · cases h
    unfold requestOf
    split
    · rename_i heq
      exact absurd (List.cons.inj heq).1 hb
    · rfl

theorem ind_head {s : State} {m f : Msg} (h : tDataGroupEncode .ind s m = .ok f) : f.head? = some 0x01 := by
  have h1 : ∀ m, linkEncode .ind s m = .ok f → f.head? = some 0x01 := by
    intro m h
    unfold linkEncode at h
    rcases ht : s.addressType with _ | t <;> rw [ht] at h
    · cases h
    · cases h
      rfl
  have h2 : ∀ m, nDataGroupEncode .ind s m = .ok f → f.head? = some 0x01 := by
    intro m h
    unfold nDataGroupEncode at h
    rcases ht : s.getAddresses with e | _ | ⟨a, as⟩ <;> rw [ht] at h
    · cases h
    · exact h1 _ h
    · exact h1 _ h
  unfold tDataGroupEncode at h
  rcases ht : s.getTsaps with e | _ | ⟨a, as⟩ <;> rw [ht] at h
  · cases h
  · exact h2 _ h
  · simp only at h
    rcases hp : s.apci with _ | p <;> rw [hp] at h
    · cases h
    · exact h2 _ h

theorem requestOf_tunnel (c q : Byte) (m : Msg) : requestOf (tunnelRequest c q m) = some (c, q, m) := by
  unfold tunnelRequest
  rw [octetsOf_two]
  rfl

/-- Messages that are no application requests are no tunnelling requests. -/
theorem request_none {m : InMsg} {s : State} (hm : s.medium = .knxnetIp) {f : Msg} (h : (encodeMsg m s).1 = .ok f)
    (hc : carrier s m ≠ .tunnelled) : requestOf f = none := by
  have ht : ∀ {m : InMsg}, (match s.medium with
    | .usbHid => Carrier.report | .knxnetIp => .tunnelled | .tp => .bare) ≠ .tunnelled → requestOf f = none := by
    intro m h
    rw [hm] at h
    exact absurd rfl h
  cases m with
  | connectReq => cases h; rfl
  | disconnectReq ip port =>
    change channelReqEncode 0x0209 s ip port = _ at h
    unfold channelReqEncode at h
    rcases hs : s.chan with _ | n <;> rw [hs] at h <;> cases h
    rfl
  | connectionstateReq ip port =>
    change channelReqEncode 0x0207 s ip port = _ at h
    unfold channelReqEncode at h
    rcases hs : s.chan with _ | n <;> rw [hs] at h <;> cases h
    rfl
  | searchReq => cases h; rfl
  | tunnelingAck q st =>
    rcases hs : s.chan with _ | n
    · change (tunnelingAckEncode q st s).1 = _ at h
      unfold tunnelingAckEncode connectionHeader at h
      rw [hs] at h
      cases h
    · rw [ack_encode hs] at h
      cases h
      rfl
  | groupWriteInd asap d =>
    refine requestOf_head (b := 0x01) ?_ (by decide)
    change (groupWriteEncode .ind asap d s).1 = _ at h
    unfold groupWriteEncode at h
    simp only at h
    split at h
    · cases h
    · exact ind_head h
  | groupRead asap => exact ht (m := .groupRead asap) hc
  | groupWriteReq asap d => exact ht (m := .groupWriteReq asap d) hc
  | propertyRead asap oi pid n si => exact ht (m := .propertyRead asap oi pid n si) hc
  | propertyWrite asap oi pid n si data => exact ht (m := .propertyWrite asap oi pid n si data) hc

/-- The datagrams on the wire that are requests carry the channel and the counter of the state. -/
def Numbered (s : State) (ds : List Msg) : Prop :=
  ∀ d ∈ ds, ∀ c q x, requestOf d = some (c, q, x) →
    ∃ n, s.chan = some n ∧ c = BitVec.ofNat 8 n ∧ q = BitVec.ofNat 8 s.seqLocal

/-- What an encoded message is to the server. -/
theorem request_encoded {m : InMsg} {s : State} (hm : s.medium = .knxnetIp) {f : Msg} (h : (encodeMsg m s).1 = .ok f)
    {c q : Byte} {x : Msg} (hr : requestOf f = some (c, q, x)) :
    ∃ n, s.chan = some n ∧ c = BitVec.ofNat 8 n ∧ q = BitVec.ofNat 8 s.seqLocal := by
  by_cases hc : carrier s m = .tunnelled
  · obtain ⟨n, y, h1, rfl⟩ := c44_requests h hc
    rw [requestOf_tunnel] at hr
    cases hr
    exact ⟨n, h1, rfl, rfl⟩
  · rw [request_none hm h hc] at hr
    cases hr

/-- The datagrams an event puts on the wire. -/
theorem step_wire {c : Client} (hm : c.state.medium = .knxnetIp) (e : Client.Event) :
    ∃ new, (Client.step c e).wire = c.wire ++ new ∧ Numbered c.state new ∧
      ((∀ m, e ≠ .write m) → ∀ d ∈ new, requestOf d = none) := by
  have weaken : ∀ {new : List Msg}, (∀ d ∈ new, requestOf d = none) → Numbered c.state new := by
    intro new h d hd ch q x hr
    rw [h d hd] at hr
    cases hr
  have other : ∀ {m : InMsg} {s : State} {f : Msg}, (encodeMsg m s).1 = .ok f → (∀ s, carrier s m = .datagram) →
      requestOf f = none := by
    intro m s f h hc
    have h' : (encodeMsg m { s with medium := .knxnetIp }).1 = .ok f := by
      have h0 := hc s
      cases m <;> simp only [carrier, reduceCtorEq] at h0 <;> first | exact h | skip
      case groupRead | groupWriteReq | propertyRead | propertyWrite => split at h0 <;> cases h0
      rename_i q st
      change (tunnelingAckEncode q st s).1 = _ at h
      change (tunnelingAckEncode q st { s with medium := .knxnetIp }).1 = _
      unfold tunnelingAckEncode connectionHeader at h ⊢
      rcases hs : s.chan with _ | n <;> rw [hs] at h <;> cases h
      rfl
    exact request_none (s := { s with medium := .knxnetIp }) rfl h' (by rw [hc]; decide)
  cases e with
  | made =>
    obtain ⟨f, h1, h2⟩ := c49_made c
    have : ∀ d ∈ [f], requestOf d = none := by
      intro d hd
      rw [List.mem_singleton.1 hd]
      exact other h1 fun _ => rfl
    exact ⟨[f], h2, weaken this, fun _ => this⟩
  | lost => exact ⟨[], (List.append_nil _).symm, weaken (by simp), fun _ => by simp⟩
  | write m =>
    have none : ∃ new, c.wire = c.wire ++ new ∧ Numbered c.state new ∧
        ((∀ m', Client.Event.write m ≠ .write m') → ∀ d ∈ new, requestOf d = none) :=
      ⟨[], (List.append_nil _).symm, weaken (by simp), fun _ => by simp⟩
    show ∃ new, (write m c).2.wire = _ ∧ _
    unfold write
    split_ifs
    · simp only [Py.bind, Py.lift]
      rcases formatIn m with e | u
      · exact none
      · obtain ⟨-, new, h1, h2⟩ := encodeAndSend_effect m c
        exact ⟨new, h1, fun d hd ch q x hr => request_encoded hm (h2 d hd) hr, fun h => absurd rfl (h m)⟩
    · exact none
  | datagram d =>
    obtain ⟨new, h1, h2⟩ := c49_wire c (.datagram d)
    have : ∀ d ∈ new, requestOf d = none := by
      intro f hf
      obtain ⟨m, s, ⟨r, -, h⟩, h4⟩ := h2 f hf
      refine other h4 fun s => ?_
      rcases h with ⟨seq, rfl, -⟩ | ⟨rfl, -⟩ <;> rfl
    exact ⟨new, h1, weaken this, fun _ => this⟩

/-! ## C62 -/

/-- The invariant: `l` is the counter of the client. Requests under way to the server carry the counter before the expected
one, then the expected one; the latter only if the client is at that counter, and their frames come after the accepted ones.
Acknowledgements under way to the client acknowledge the request before, then the current one; the latter only if the
server has accepted it. -/
structure Tracked (k : Nat) (n : Net) : Prop where
  medium : n.client.state.medium = .knxnetIp
  chan : n.client.state.chan = some n.gateway.chan.toNat
  up : ∃ old new, n.up = old ++ new ∧
    (∀ d ∈ old, ∀ c q x, requestOf d = some (c, q, x) → c = n.gateway.chan ∧ q = n.gateway.expected - 1) ∧
    (∀ d ∈ new, ∀ c q x, requestOf d = some (c, q, x) → c = n.gateway.chan ∧ q = n.gateway.expected ∧
      n.client.state.seqLocal = n.gateway.expected.toNat ∧
      (n.gateway.accepted ++ [x]).Sublist (framesOf (n.client.wire.drop k)))
  down : ∃ old new, n.down = old ++ new ∧
    (∀ d ∈ old, ∃ q : Byte, d = ackFrame n.gateway.chan.toNat q.toNat 0 ∧ n.client.state.seqLocal = (q + 1).toNat) ∧
    (∀ d ∈ new, ∃ q : Byte, d = ackFrame n.gateway.chan.toNat q.toNat 0 ∧ n.client.state.seqLocal = q.toNat ∧
      n.gateway.expected = q + 1)
  counter : n.client.state.seqLocal = n.gateway.expected.toNat ∨ n.client.state.seqLocal = (n.gateway.expected - 1).toNat
  accepted : n.gateway.accepted.Sublist (framesOf (n.client.wire.drop k))
  start : k ≤ n.client.wire.length

theorem ackCounter_ack (c q st : Nat) : ackCounter (ackFrame c q st) = some (q % 256) := by
  unfold ackCounter ackFrame
  simp

theorem framesOf_append (a b : List Msg) : framesOf (a ++ b) = framesOf a ++ framesOf b := by
  unfold framesOf
  rw [List.filterMap_append]

theorem ofNat_self (b : Byte) : BitVec.ofNat 8 b.toNat = b := by simp

theorem sub_one_ne (b : Byte) : b - 1 ≠ b := by
  revert b; decide

theorem add_one_ne (b : Byte) : b + 1 ≠ b := by
  revert b; decide

/-- Events of the client apart from the connection keep the invariant. -/
theorem tracked_client {n : Net} {k : Nat} (h : Tracked k n) {c : Client} (hs : Alike n.client.state c.state) {ds : List Msg}
    (hw : c.wire = n.client.wire ++ ds) (hn : Numbered n.client.state ds) :
    Tracked k { n with client := c, up := n.up ++ ds } := by
  have hsub : (framesOf (n.client.wire.drop k)).Sublist (framesOf (c.wire.drop k)) := by
    rw [hw, List.drop_append_of_le_length h.start, framesOf_append]
    exact List.sublist_append_left _ _
  have hstart : k ≤ c.wire.length := by
    rw [hw, List.length_append]
    exact Nat.le_add_right_of_le h.start
  refine ⟨hs.medium.trans h.medium, hs.chan.trans h.chan, ?_, ?_, ?_, h.accepted.trans hsub, hstart⟩
  · obtain ⟨old, new, h1, h2, h3⟩ := h.up
    have h3' : ∀ d ∈ new, ∀ ch q x, requestOf d = some (ch, q, x) → ch = n.gateway.chan ∧ q = n.gateway.expected ∧
        c.state.seqLocal = n.gateway.expected.toNat ∧ (n.gateway.accepted ++ [x]).Sublist (framesOf (c.wire.drop k)) := by
      intro d hd ch q x hr
      obtain ⟨i1, i2, i3, i4⟩ := h3 d hd ch q x hr
      exact ⟨i1, i2, hs.counter.trans i3, i4.trans hsub⟩
    rcases h.counter with hc | hc
    · refine ⟨old, new ++ ds, by simp only [h1, List.append_assoc], h2, ?_⟩
      intro d hd ch q x hr
      rcases List.mem_append.1 hd with hd | hd
      · exact h3' d hd ch q x hr
      · obtain ⟨k, k1, k2, k3⟩ := hn d hd ch q x hr
        rw [h.chan] at k1
        cases k1
        refine ⟨k2.trans (ofNat_self _), ?_, hs.counter.trans hc, ?_⟩
        · rw [k3, hc, ofNat_self]
        · simp only [hw, List.drop_append_of_le_length h.start, framesOf_append]
          refine List.Sublist.append h.accepted (List.singleton_sublist.2 ?_)
          exact List.mem_filterMap.2 ⟨d, hd, by rw [hr]; rfl⟩
    · have hno : ∀ d ∈ new, ∀ ch q x, requestOf d ≠ some (ch, q, x) := by
        intro d hd ch q x hr
        obtain ⟨-, -, i3, -⟩ := h3 d hd ch q x hr
        rw [hc] at i3
        exact sub_one_ne _ (BitVec.eq_of_toNat_eq i3)
      refine ⟨n.up ++ ds, [], by simp, ?_, by simp⟩
      intro d hd ch q x hr
      rcases List.mem_append.1 hd with hd | hd
      · rw [h1] at hd
        rcases List.mem_append.1 hd with hd | hd
        · exact h2 d hd ch q x hr
        · exact absurd hr (hno d hd ch q x)
      · obtain ⟨k, k1, k2, k3⟩ := hn d hd ch q x hr
        rw [h.chan] at k1
        cases k1
        exact ⟨k2.trans (ofNat_self _), by rw [k3, hc, ofNat_self]⟩
  · obtain ⟨old, new, h1, h2, h3⟩ := h.down
    refine ⟨old, new, h1, ?_, ?_⟩
    · intro d hd
      obtain ⟨q, i1, i2⟩ := h2 d hd
      exact ⟨q, i1, hs.counter.trans i2⟩
    · intro d hd
      obtain ⟨q, i1, i2, i3⟩ := h3 d hd
      exact ⟨q, i1, hs.counter.trans i2, i3⟩
  · rw [hs.counter]
    exact h.counter

theorem tracked_up {n : Net} {k : Nat} (h : Tracked k n) {up : List Msg}
    (hu : ∀ old new, n.up = old ++ new → ∃ old' new', up = old' ++ new' ∧ (∀ d ∈ old', d ∈ old) ∧ ∀ d ∈ new', d ∈ new) :
    Tracked k { n with up := up } := by
  refine ⟨h.medium, h.chan, ?_, h.down, h.counter, h.accepted, h.start⟩
  obtain ⟨old, new, h1, h2, h3⟩ := h.up
  obtain ⟨old', new', i1, i2, i3⟩ := hu old new h1
  exact ⟨old', new', i1, fun d hd => h2 d (i2 d hd), fun d hd => h3 d (i3 d hd)⟩

theorem tracked_down {n : Net} {k : Nat} (h : Tracked k n) {down : List Msg}
    (hu : ∀ old new, n.down = old ++ new →
      ∃ old' new', down = old' ++ new' ∧ (∀ d ∈ old', d ∈ old) ∧ ∀ d ∈ new', d ∈ new) :
    Tracked k { n with down := down } := by
  refine ⟨h.medium, h.chan, h.up, ?_, h.counter, h.accepted, h.start⟩
  obtain ⟨old, new, h1, h2, h3⟩ := h.down
  obtain ⟨old', new', i1, i2, i3⟩ := hu old new h1
  exact ⟨old', new', i1, fun d hd => h2 d (i2 d hd), fun d hd => h3 d (i3 d hd)⟩

theorem split_erase {l old new : List Msg} (h : l = old ++ new) (i : Nat) :
    ∃ old' new', l.eraseIdx i = old' ++ new' ∧ (∀ d ∈ old', d ∈ old) ∧ ∀ d ∈ new', d ∈ new := by
  have hs : (l.eraseIdx i).Sublist (old ++ new) := h ▸ List.eraseIdx_sublist _ _
  obtain ⟨a, b, h1, h2, h3⟩ := List.sublist_append_iff.1 hs
  exact ⟨a, b, h1, h2.subset, h3.subset⟩

theorem split_double {l old new : List Msg} (h : l = old ++ new) :
    ∃ old' new', l.take 1 ++ l = old' ++ new' ∧ (∀ d ∈ old', d ∈ old) ∧ ∀ d ∈ new', d ∈ new := by
  subst h
  rcases old with _ | ⟨a, old⟩
  · refine ⟨[], new.take 1 ++ new, rfl, by simp, ?_⟩
    intro d hd
    rcases List.mem_append.1 hd with hd | hd
    · exact List.mem_of_mem_take hd
    · exact hd
  · exact ⟨a :: a :: old, new, by simp, by simp, fun d => id⟩

theorem split_tail {a : Msg} {l old new : List Msg} (h : a :: l = old ++ new) :
    ∃ old' new', l = old' ++ new' ∧ (∀ d ∈ old', d ∈ old) ∧ ∀ d ∈ new', d ∈ new := by
  rcases old with _ | ⟨b, old⟩
  · exact ⟨[], l, rfl, by simp, fun d hd => by rw [← List.nil_append new, ← h]; exact List.mem_cons_of_mem _ hd⟩
  · rw [List.cons_append, List.cons.injEq] at h
    exact ⟨old, new, h.2, fun d hd => List.mem_cons_of_mem _ hd, fun d => id⟩

theorem tracked_arrives {n : Net} {k : Nat} (h : Tracked k n) : Tracked k (n.step .upArrives) := by
  rcases hu : n.up with _ | ⟨d, ds⟩
  · unfold Net.step
    simp only [hu]
    exact h
  have hstep : n.step .upArrives =
      { n with up := ds, gateway := (n.gateway.receive d).1, down := n.down ++ (n.gateway.receive d).2 } := by
    unfold Net.step
    simp only [hu]
  have htail : Tracked k { n with up := ds } := tracked_up h fun old new he => split_tail (hu ▸ he)
  rw [hstep]
  unfold Gateway.receive
  rcases hr : requestOf d with _ | ⟨c, q, x⟩
  · simp only [List.append_nil]
    exact htail
  simp only
  obtain ⟨old, new, h1, h2, h3⟩ := h.up
  by_cases hold : d ∈ old
  · obtain ⟨rfl, rfl⟩ := h2 d hold c q x hr
    rw [if_neg (by simp), if_neg (sub_one_ne _), if_pos rfl]
    simp only
    refine ⟨htail.medium, htail.chan, htail.up, ?_, htail.counter, htail.accepted, htail.start⟩
    obtain ⟨o, w, j1, j2, j3⟩ := h.down
    simp only at *
    rcases h.counter with hc | hc
    · have hw : w = [] := by
        rcases w with _ | ⟨y, w⟩
        · rfl
        · obtain ⟨q, -, k1, k2⟩ := j3 y List.mem_cons_self
          rw [hc, k2] at k1
          exact absurd (BitVec.eq_of_toNat_eq k1) (add_one_ne q)
      subst hw
      refine ⟨o ++ [ackFrame n.gateway.chan.toNat (n.gateway.expected - 1).toNat 0], [], by rw [j1]; simp, ?_, by simp⟩
      intro y hy
      rcases List.mem_append.1 hy with hy | hy
      · exact j2 y hy
      · exact ⟨_, List.mem_singleton.1 hy, by rw [hc, BitVec.sub_add_cancel]⟩
    · refine ⟨o, w ++ [ackFrame n.gateway.chan.toNat (n.gateway.expected - 1).toNat 0], by rw [j1]; simp, j2, ?_⟩
      intro y hy
      rcases List.mem_append.1 hy with hy | hy
      · exact j3 y hy
      · exact ⟨_, List.mem_singleton.1 hy, hc, by rw [BitVec.sub_add_cancel]⟩
  · have hnil : old = [] := by
      rcases old with _ | ⟨b, old⟩
      · rfl
      · rw [hu, List.cons_append, List.cons.injEq] at h1
        exact absurd (h1.1 ▸ List.mem_cons_self) hold
    subst hnil
    rw [List.nil_append] at h1
    have hnew : d ∈ new := by rw [← h1, hu]; exact List.mem_cons_self
    obtain ⟨rfl, rfl, hl, hsub⟩ := h3 d hnew c q x hr
    rw [if_neg (by simp), if_pos rfl]
    refine ⟨h.medium, h.chan, ?_, ?_, ?_, hsub, h.start⟩
    · refine ⟨ds, [], by simp, ?_, by simp⟩
      intro y hy c q x hr
      have hy' : y ∈ new := by rw [← h1, hu]; exact List.mem_cons_of_mem _ hy
      obtain ⟨rfl, rfl, -, -⟩ := h3 y hy' c q x hr
      exact ⟨rfl, (BitVec.add_sub_cancel _ _).symm⟩
    · obtain ⟨o, w, j1, j2, j3⟩ := h.down
      have hw : w = [] := by
        rcases w with _ | ⟨y, w⟩
        · rfl
        · obtain ⟨q, -, k1, k2⟩ := j3 y List.mem_cons_self
          rw [hl, k2] at k1
          exact absurd (BitVec.eq_of_toNat_eq k1) (add_one_ne q)
      subst hw
      refine ⟨o, [ackFrame n.gateway.chan.toNat n.gateway.expected.toNat 0], by simp only [j1]; simp, j2, ?_⟩
      intro y hy
      exact ⟨_, List.mem_singleton.1 hy, hl, rfl⟩
    · right
      simp only [BitVec.add_sub_cancel]
      exact hl

theorem ack_step {c : Client} (hm : c.state.medium = .knxnetIp) (ch : Nat) (q : Byte) :
    (Client.step c (.datagram (ackFrame ch q.toNat 0))).wire = c.wire ∧
    (Client.step c (.datagram (ackFrame ch q.toNat 0))).state.medium = .knxnetIp ∧
    (Client.step c (.datagram (ackFrame ch q.toNat 0))).state.chan = c.state.chan ∧
    (Client.step c (.datagram (ackFrame ch q.toNat 0))).state.seqLocal =
      if c.state.seqLocal = q.toNat then (q + 1).toNat else c.state.seqLocal := by
  have ha := datagram_alike (ackFrame ch q.toNat 0) c
  have hw := (c61_other (c := c) hm (d := ackFrame ch q.toNat 0) (fun body h => by cases h)
    (fun l1 l2 x c q st m h => by cases h)).1
  have hch := c44_channel hm [.decode (ackFrame ch q.toNat 0)]
  have hl := c43_local hm [.decode (ackFrame ch q.toNat 0)]
  simp only [afterAll, List.foldl, after, localAfter, ackCounter_ack, channelAfter] at hl hch
  refine ⟨hw, ?_, ?_, ?_⟩
  · rw [ha.medium, (c33_tables _ _).1, hm]
  · rw [ha.chan, hch]
    simp [connectedTo, disconnected, ackFrame]
  · rw [ha.counter, hl]
    have hq := q.isLt
    have h1 : q.toNat % 256 = q.toNat := by omega
    rw [h1]
    by_cases he : c.state.seqLocal = q.toNat
    · rw [if_pos (by rw [he]), if_pos he, he, BitVec.toNat_add]
      rfl
    · rw [if_neg (fun h => he (Option.some.inj h).symm), if_neg he]

theorem tracked_acked {n : Net} {k : Nat} (h : Tracked k n) : Tracked k (n.step .downArrives) := by
  rcases hu : n.down with _ | ⟨d, ds⟩
  · unfold Net.step
    simp only [hu]
    exact h
  have htail : Tracked k { n with down := ds } := tracked_down h fun old new he => split_tail (hu ▸ he)
  obtain ⟨old, new, h1, h2, h3⟩ := h.down
  have hack : ∃ q : Byte, d = ackFrame n.gateway.chan.toNat q.toNat 0 ∧ (d ∈ old ∨ d ∈ new) := by
    have : d ∈ old ++ new := by rw [← h1, hu]; exact List.mem_cons_self
    rcases List.mem_append.1 this with hd | hd
    · obtain ⟨q, i, -⟩ := h2 d hd
      exact ⟨q, i, .inl hd⟩
    · obtain ⟨q, i, -⟩ := h3 d hd
      exact ⟨q, i, .inr hd⟩
  obtain ⟨q, hq, hmem⟩ := hack
  obtain ⟨w1, w2, w3, w4⟩ := ack_step (c := n.client) h.medium n.gateway.chan.toNat q
  rw [← hq] at w1 w2 w3 w4
  have hstep : n.step .downArrives = { n with client := Client.step n.client (.datagram d), down := ds } := by
    unfold Net.step
    simp only [hu, w1, List.drop_length, List.append_nil]
  rw [hstep]
  by_cases hl : n.client.state.seqLocal = q.toNat
  · rw [if_pos hl] at w4
    have hnone : old = [] := by
      rcases old with _ | ⟨b, old⟩
      · rfl
      · rw [hu, List.cons_append, List.cons.injEq] at h1
        obtain ⟨p, i1, i2⟩ := h2 b List.mem_cons_self
        have hpq := (hq.symm.trans h1.1).trans i1
        unfold ackFrame at hpq
        simp only [List.cons.injEq, true_and, and_true, ofNat_self] at hpq
        rw [← hpq, hl] at i2
        exact absurd (BitVec.eq_of_toNat_eq i2).symm (add_one_ne q)
    subst hnone
    rw [List.nil_append] at h1
    have hin : ∀ y ∈ new, y = d ∧ n.gateway.expected = q + 1 := by
      intro y hy
      obtain ⟨p, i1, i2, i3⟩ := h3 y hy
      rw [hl] at i2
      have hpq := BitVec.eq_of_toNat_eq i2
      subst hpq
      exact ⟨i1.trans hq.symm, i3⟩
    have hexp := (hin d (by rw [← h1, hu]; exact List.mem_cons_self)).2
    refine ⟨w2, w3.trans h.chan, ?_, ?_, ?_, ?_, by rw [w1]; exact h.start⟩
    · obtain ⟨o, w, j1, j2, j3⟩ := h.up
      refine ⟨o, w, j1, j2, ?_⟩
      intro y hy c x z hr
      obtain ⟨-, -, k, -⟩ := j3 y hy c x z hr
      rw [hl, hexp] at k
      exact absurd (BitVec.eq_of_toNat_eq k).symm (add_one_ne q)
    · refine ⟨ds, [], by simp, ?_, by simp⟩
      intro y hy
      have := (hin y (by rw [← h1, hu]; exact List.mem_cons_of_mem _ hy)).1
      exact ⟨q, this.trans hq, w4⟩
    · left
      simp only [w4, hexp]
    · simp only [w1]
      exact h.accepted
  · rw [if_neg hl] at w4
    have ht := c33_tables d n.client.state
    have ha := datagram_alike d n.client
    have := tracked_client htail (c := Client.step n.client (.datagram d))
      ⟨w2.trans h.medium.symm, w3, w4, ha.assoc.trans ht.2.1, ha.got.trans ht.2.2⟩ (ds := []) (by rw [w1]; simp)
      (by intro d hd; cases hd)
    simpa using this

theorem tracked_step {n : Net} {k : Nat} (h : Tracked k n) {e : NetEvent} (he : Apart e) : Tracked k (n.step e) := by
  cases e with
  | client e =>
    obtain ⟨new, h1, h2, -⟩ := step_wire h.medium e
    have := tracked_client h (apart_alike h.medium he) h1 h2
    unfold Net.step
    simp only [h1, List.drop_left]
    exact this
  | upLost i => exact tracked_up h fun old new he => split_erase he i
  | upDoubled => exact tracked_up h fun old new he => split_double he
  | upArrives => exact tracked_arrives h
  | downLost i => exact tracked_down h fun old new he => split_erase he i
  | downDoubled => exact tracked_down h fun old new he => split_double he
  | downArrives => exact tracked_acked h

theorem tracked_idle {n : Net} (h : n.Idle) (hw : n.gateway.accepted = []) : Tracked n.client.wire.length n :=
  ⟨h.medium, h.chan, ⟨[], [], by rw [h.up]; rfl, by simp, by simp⟩, ⟨[], [], by rw [h.down]; rfl, by simp, by simp⟩,
    .inl h.counter, by rw [hw]; exact List.nil_sublist _, Nat.le_refl _⟩

theorem tracked_run {n : Net} {k : Nat} (h : Tracked k n) {es : List NetEvent} (he : ∀ e ∈ es, Apart e) : Tracked k (n.run es) := by
  induction es generalizing n with
  | nil => exact h
  | cons e es ih => exact ih (tracked_step h (he e List.mem_cons_self)) fun e h => he e (List.mem_cons_of_mem _ h)

/-- C62: whatever the network loses or doubles and whatever else the client does, the frames the server accepts are frames
the client sent on this connection, each at most once and in the order sent; the counters of client and server never differ
by more than one. -/
theorem c62_once {n : Net} (h : n.Idle) (hw : n.gateway.accepted = []) {es : List NetEvent} (he : ∀ e ∈ es, Apart e) :
    (n.run es).gateway.accepted.Sublist (framesOf ((n.run es).client.wire.drop n.client.wire.length)) ∧
    ((n.run es).client.state.seqLocal = (n.run es).gateway.expected.toNat ∨
      (n.run es).client.state.seqLocal = ((n.run es).gateway.expected - 1).toNat) := by
  have ht := tracked_run (tracked_idle h hw) he
  exact ⟨ht.accepted, ht.counter⟩

/-! ## C63 -/

namespace Spec

/-- A message is written, its request arrives, and so does the acknowledgement, before anything else happens. -/
def calmly (m : InMsg) : List NetEvent := [.client (.write m), .upArrives, .downArrives]

/-- The client is connected and the message becomes a request with the cEMI frame `x`. -/
def Sends (c : Client) (m : InMsg) (x : Msg) : Prop :=
  c.connected = true ∧ c.transport = true ∧ formatIn m = .ok () ∧
    ∃ ch q, (encodeMsg m c.state).1 = .ok (tunnelRequest ch q x)

end Spec

theorem sends_step {c : Client} (hm : c.state.medium = .knxnetIp) {n : Nat} (hc : c.state.chan = some n) {m : InMsg} {x : Msg}
    (h : Sends c m x) :
    (Client.step c (.write m)).wire =
      c.wire ++ [tunnelRequest (BitVec.ofNat 8 n) (BitVec.ofNat 8 c.state.seqLocal) x] ∧
    (Client.step c (.write m)).connected = true ∧ (Client.step c (.write m)).transport = true := by
  obtain ⟨h1, h2, h3, ch, q, h4⟩ := h
  obtain ⟨k, k1, k2, k3⟩ := request_encoded hm h4 (requestOf_tunnel ch q x)
  rw [hc] at k1
  cases k1
  refine ⟨by rw [← k2, ← k3]; exact (c49_written m c).2 ⟨h1, h2, h3, h4⟩, ?_, ?_⟩
  · show (write m c).2.connected = true
    unfold write
    rw [if_pos h1]
    simp only [Py.bind, Py.lift, h3]
    rw [encodeAndSend_connected]
    exact h1
  · show (write m c).2.transport = true
    unfold write
    rw [if_pos h1]
    simp only [Py.bind, Py.lift, h3]
    exact ((encodeAndSend_effect m c).1.2.1).trans h2

theorem write_wire (m : InMsg) (c : Client) : (Client.step c (.write m)).wire = c.wire ∨
    ∃ f, (Client.step c (.write m)).wire = c.wire ++ [f] := by
  show (write m c).2.wire = _ ∨ ∃ f, (write m c).2.wire = _
  unfold write
  split_ifs
  · simp only [Py.bind, Py.lift]
    rcases formatIn m with e | u
    · exact .inl rfl
    · simp only [encodeAndSend_eq]
      rcases encodeMsg m c.state with ⟨e | f, s⟩
      · exact .inl rfl
      · simp only
        split_ifs
        · exact .inr ⟨f, rfl⟩
        · exact .inl rfl
  · exact .inl rfl

/-- A request with the expected counter arrives at the server. -/
theorem arrives_new {c : Client} {g : Gateway} {x : Msg} {ds ds' : List Msg} :
    Net.step ⟨c, tunnelRequest g.chan g.expected x :: ds, ds', g⟩ .upArrives =
      ⟨c, ds, ds' ++ [ackFrame g.chan.toNat g.expected.toNat 0],
        { g with expected := g.expected + 1, accepted := g.accepted ++ [x] }⟩ := by
  unfold Net.step Gateway.receive
  simp only [requestOf_tunnel]
  rw [if_neg (by simp), if_pos trivial]

/-- A request with the counter before arrives at the server. -/
theorem arrives_old {c : Client} {g : Gateway} {x : Msg} {ds ds' : List Msg} :
    Net.step ⟨c, tunnelRequest g.chan (g.expected - 1) x :: ds, ds', g⟩ .upArrives =
      ⟨c, ds, ds' ++ [ackFrame g.chan.toNat (g.expected - 1).toNat 0], g⟩ := by
  unfold Net.step Gateway.receive
  simp only [requestOf_tunnel]
  rw [if_neg (by simp), if_neg (sub_one_ne _), if_pos trivial]

/-- An acknowledgement arrives at the client. -/
theorem arrives_ack {c : Client} (hm : c.state.medium = .knxnetIp) {g : Gateway} {n : Nat} {q : Byte} {ds ds' : List Msg} :
    Net.step ⟨c, ds, ackFrame n q.toNat 0 :: ds', g⟩ .downArrives =
      ⟨Client.step c (.datagram (ackFrame n q.toNat 0)), ds, ds', g⟩ := by
  unfold Net.step
  simp only [(ack_step hm n q).1, List.drop_length, List.append_nil]

/-- A message is written. -/
theorem written {c : Client} {g : Gateway} {m : InMsg} {ds ds' new : List Msg}
    (h : (Client.step c (.write m)).wire = c.wire ++ new) :
    Net.step ⟨c, ds, ds', g⟩ (.client (.write m)) = ⟨Client.step c (.write m), ds ++ new, ds', g⟩ := by
  unfold Net.step
  simp only [h, List.drop_left]

theorem requestOf_some {f : Msg} {c q : Byte} {x : Msg} (h : requestOf f = some (c, q, x)) (g : Gateway) :
    g.receive f = g.receive (tunnelRequest c q x) := by
  unfold Gateway.receive
  rw [h, requestOf_tunnel]

theorem calm_one {n : Net} (h : n.Idle) (m : InMsg) : (n.run (calmly m)).Idle ∧
    (n.run (calmly m)).gateway.accepted =
      n.gateway.accepted ++ framesOf ((n.run (calmly m)).client.wire.drop n.client.wire.length) ∧
    ∃ new, (n.run (calmly m)).client.wire = n.client.wire ++ new := by
  obtain ⟨c, up, down, g⟩ := n
  obtain ⟨h1, h2, h3, rfl, rfl⟩ := h
  simp only at h1 h2 h3
  have ha := write_alike m c
  obtain ⟨new, hw, hn, -⟩ := step_wire h1 (.write m)
  unfold calmly Net.run
  simp only [List.foldl_cons, List.foldl_nil]
  rw [written hw, List.nil_append]
  have same : ∀ c' : Client, Alike c.state c'.state → (∃ ds, c'.wire = c.wire ++ ds ∧ framesOf ds = []) →
      (Net.Idle ⟨c', [], [], g⟩) ∧ g.accepted = g.accepted ++ framesOf (c'.wire.drop c.wire.length) ∧
      ∃ ds, c'.wire = c.wire ++ ds := by
    rintro c' hc' ⟨ds, hw', hf⟩
    refine ⟨⟨hc'.medium.trans h1, hc'.chan.trans h2, hc'.counter.trans h3, rfl, rfl⟩, ?_, ds, hw'⟩
    rw [hw', List.drop_left, hf, List.append_nil]
  have hone : new = [] ∨ ∃ f, new = [f] := by
    rcases write_wire m c with hx | ⟨f, hx⟩
    · rw [hw] at hx
      exact .inl (List.append_right_eq_self.1 hx)
    · rw [hw] at hx
      exact .inr ⟨f, List.append_cancel_left hx⟩
  rcases hone with rfl | ⟨f, rfl⟩
  · exact same (Client.step c (.write m)) ha ⟨[], hw, rfl⟩
  · rcases hr : requestOf f with _ | ⟨ch, q, x⟩
    · have hu : Net.step ⟨Client.step c (.write m), [f], [], g⟩ .upArrives = ⟨Client.step c (.write m), [], [], g⟩ := by
        unfold Net.step Gateway.receive
        simp only [hr, List.append_nil]
      rw [hu]
      exact same (Client.step c (.write m)) ha ⟨[f], hw, by simp [framesOf, hr]⟩
    · obtain ⟨k, k1, k2, k3⟩ := hn f (by simp) ch q x hr
      rw [h2] at k1
      cases k1
      rw [ofNat_self] at k2
      rw [h3, ofNat_self] at k3
      subst k2 k3
      have hu : Net.step ⟨Client.step c (.write m), [f], [], g⟩ .upArrives =
          Net.step ⟨Client.step c (.write m), [tunnelRequest g.chan g.expected x], [], g⟩ .upArrives := by
        unfold Net.step
        simp only [requestOf_some hr]
      have hm' := ha.medium.trans h1
      rw [hu, arrives_new, List.nil_append, arrives_ack hm']
      obtain ⟨w1, w2, w3, w4⟩ := ack_step hm' g.chan.toNat g.expected
      rw [if_pos (ha.counter.trans h3)] at w4
      refine ⟨⟨w2, w3.trans (ha.chan.trans h2), w4, rfl, rfl⟩, ?_, [f], ?_⟩
      · simp only
        rw [w1, hw, List.drop_left]
        simp [framesOf, hr]
      · simp only
        rw [w1, hw]

/-- C63, for a network that loses nothing and an application that waits: if every message is written when the acknowledgement
of the one before has arrived, the server accepts exactly the frames sent, in order. Missing from the full claim: two
messages written before the first acknowledgement (`c63_early_refuted`), and lost acknowledgements (`c63_refuted`). -/
theorem c63_partial {n : Net} (h : n.Idle) (ms : List InMsg) : (n.run (ms.flatMap calmly)).Idle ∧
    (n.run (ms.flatMap calmly)).gateway.accepted =
      n.gateway.accepted ++ framesOf ((n.run (ms.flatMap calmly)).client.wire.drop n.client.wire.length) := by
  have key : ∀ (ms : List InMsg) {n : Net}, n.Idle → (n.run (ms.flatMap calmly)).Idle ∧
      (n.run (ms.flatMap calmly)).gateway.accepted =
        n.gateway.accepted ++ framesOf ((n.run (ms.flatMap calmly)).client.wire.drop n.client.wire.length) ∧
      ∃ new, (n.run (ms.flatMap calmly)).client.wire = n.client.wire ++ new := by
    intro ms
    induction ms with
    | nil => exact fun {n} h => ⟨h, by simp [Net.run, framesOf], [], by simp [Net.run]⟩
    | cons m ms ih =>
      intro n h
      obtain ⟨h1, h2, new1, h3⟩ := calm_one h m
      obtain ⟨i1, i2, new2, i3⟩ := ih h1
      have hrun : n.run ((m :: ms).flatMap calmly) = (n.run (calmly m)).run (ms.flatMap calmly) := by
        unfold Net.run
        rw [List.flatMap_cons, List.foldl_append]
      rw [hrun]
      refine ⟨i1, ?_, new1 ++ new2, by rw [i3, h3, List.append_assoc]⟩
      rw [i2, h2, i3, h3, List.drop_left, List.drop_left, List.append_assoc _ new1 new2, List.drop_left, framesOf_append,
        List.append_assoc]
  exact ⟨(key ms h).1, (key ms h).2.1⟩

/-- A lost request costs only itself: client and server still agree. -/
theorem c63_lost_request {n : Net} (h : n.Idle) (m : InMsg) : (n.run [.client (.write m), .upLost 0]).Idle ∧
    (n.run [.client (.write m), .upLost 0]).gateway = n.gateway := by
  obtain ⟨c, up, down, g⟩ := n
  obtain ⟨h1, h2, h3, rfl, rfl⟩ := h
  have ha := write_alike m c
  unfold Net.run
  simp only [List.foldl_cons, List.foldl_nil]
  rcases write_wire m c with hx | ⟨f, hx⟩
  · rw [written (new := []) (by rw [hx, List.append_nil])]
    exact ⟨⟨ha.medium.trans h1, ha.chan.trans h2, ha.counter.trans h3, rfl, rfl⟩, rfl⟩
  · rw [written hx]
    exact ⟨⟨ha.medium.trans h1, ha.chan.trans h2, ha.counter.trans h3, rfl, rfl⟩, rfl⟩

/-- C63 is false, for any two messages: if the acknowledgement of the first is lost, the second carries the same counter, so
the server discards it, although it acknowledges it. -/
theorem c63_refuted {n : Net} (h : n.Idle) {m m' : InMsg} {x x' : Msg} (hs : Sends n.client m x)
    (hs' : Sends (Client.step n.client (.write m)) m' x') :
    let es := [.client (.write m), .upArrives, .downLost 0, .client (.write m'), .upArrives, .downArrives]
    (n.run es).Idle ∧ (n.run es).gateway.accepted = n.gateway.accepted ++ [x] ∧
    framesOf ((n.run es).client.wire.drop n.client.wire.length) = [x, x'] := by
  obtain ⟨c, up, down, g⟩ := n
  obtain ⟨h1, h2, h3, rfl, rfl⟩ := h
  simp only at h1 h2 h3 hs hs'
  have ha := write_alike m c
  obtain ⟨w, -, -⟩ := sends_step h1 h2 hs
  rw [h3, ofNat_self, ofNat_self] at w
  have hm' := ha.medium.trans h1
  obtain ⟨w', -, -⟩ := sends_step hm' (ha.chan.trans h2) hs'
  rw [ha.counter, h3, ofNat_self, ofNat_self] at w'
  have ha' := ha.trans (write_alike m' (Client.step c (.write m)))
  intro es
  have hrun : Net.run ⟨c, [], [], g⟩ es = ⟨Client.step (Client.step (Client.step c (.write m)) (.write m'))
      (.datagram (ackFrame g.chan.toNat g.expected.toNat 0)), [], [],
      { g with expected := g.expected + 1, accepted := g.accepted ++ [x] }⟩ := by
    unfold es Net.run
    simp only [List.foldl_cons, List.foldl_nil]
    rw [written w, List.nil_append, arrives_new, List.nil_append]
    rw [show Net.step ⟨Client.step c (.write m), [], [ackFrame g.chan.toNat g.expected.toNat 0],
      { g with expected := g.expected + 1, accepted := g.accepted ++ [x] }⟩ (.downLost 0) =
      ⟨Client.step c (.write m), [], [], { g with expected := g.expected + 1, accepted := g.accepted ++ [x] }⟩ from rfl]
    rw [written w', List.nil_append]
    have := arrives_old (c := Client.step (Client.step c (.write m)) (.write m'))
      (g := { g with expected := g.expected + 1, accepted := g.accepted ++ [x] }) (x := x') (ds := []) (ds' := [])
    simp only [BitVec.add_sub_cancel] at this
    rw [this, List.nil_append, arrives_ack (ha'.medium.trans h1)]
  obtain ⟨v1, v2, v3, v4⟩ := ack_step (ha'.medium.trans h1) g.chan.toNat g.expected
  rw [if_pos (ha'.counter.trans h3)] at v4
  rw [hrun]
  refine ⟨⟨v2, v3.trans (ha'.chan.trans h2), v4, rfl, rfl⟩, rfl, ?_⟩
  simp only
  rw [v1, w', w, List.append_assoc, List.drop_left]
  simp [framesOf, requestOf_tunnel]

/-- C63 is false without any loss, for any two messages: if the second is written before the acknowledgement of the first
has arrived, it carries the same counter; the server acknowledges and discards it. -/
theorem c63_early_refuted {n : Net} (h : n.Idle) {m m' : InMsg} {x x' : Msg} (hs : Sends n.client m x)
    (hs' : Sends (Client.step n.client (.write m)) m' x') :
    let es := [.client (.write m), .client (.write m'), .upArrives, .upArrives, .downArrives, .downArrives]
    (n.run es).Idle ∧ (n.run es).gateway.accepted = n.gateway.accepted ++ [x] ∧
    framesOf ((n.run es).client.wire.drop n.client.wire.length) = [x, x'] := by
  obtain ⟨c, up, down, g⟩ := n
  obtain ⟨h1, h2, h3, rfl, rfl⟩ := h
  simp only at h1 h2 h3 hs hs'
  have ha := write_alike m c
  obtain ⟨w, -, -⟩ := sends_step h1 h2 hs
  rw [h3, ofNat_self, ofNat_self] at w
  have hm' := ha.medium.trans h1
  obtain ⟨w', -, -⟩ := sends_step hm' (ha.chan.trans h2) hs'
  rw [ha.counter, h3, ofNat_self, ofNat_self] at w'
  have ha' := ha.trans (write_alike m' (Client.step c (.write m)))
  obtain ⟨v1, v2, v3, v4⟩ := ack_step (ha'.medium.trans h1) g.chan.toNat g.expected
  rw [if_pos (ha'.counter.trans h3)] at v4
  obtain ⟨u1, u2, u3, u4⟩ := ack_step v2 g.chan.toNat g.expected
  rw [v4, if_neg (fun e => add_one_ne _ (BitVec.eq_of_toNat_eq e))] at u4
  intro es
  have hrun : Net.run ⟨c, [], [], g⟩ es = ⟨Client.step (Client.step (Client.step (Client.step c (.write m)) (.write m'))
      (.datagram (ackFrame g.chan.toNat g.expected.toNat 0))) (.datagram (ackFrame g.chan.toNat g.expected.toNat 0)), [], [],
      { g with expected := g.expected + 1, accepted := g.accepted ++ [x] }⟩ := by
    unfold es Net.run
    simp only [List.foldl_cons, List.foldl_nil]
    rw [written w, List.nil_append, written w', List.singleton_append, arrives_new, List.nil_append]
    have := arrives_old (c := Client.step (Client.step c (.write m)) (.write m'))
      (g := { g with expected := g.expected + 1, accepted := g.accepted ++ [x] }) (x := x') (ds := [])
      (ds' := [ackFrame g.chan.toNat g.expected.toNat 0])
    simp only [BitVec.add_sub_cancel] at this
    rw [this, List.singleton_append, arrives_ack (ha'.medium.trans h1), arrives_ack v2]
  rw [hrun]
  refine ⟨⟨u2, u3.trans (v3.trans (ha'.chan.trans h2)), u4, rfl, rfl⟩, rfl, ?_⟩
  simp only
  rw [u1, v1, w', w, List.append_assoc, List.drop_left]
  simp [framesOf, requestOf_tunnel]

/-- A client and a server at counter 255. -/
def exNet : Net :=
  { client := { exClient with state := { exClient.state with seqLocal := 255 } }, gateway := { chan := 0, expected := 255 } }

theorem exNet_idle : exNet.Idle := ⟨rfl, rfl, rfl, rfl, rfl⟩

/-- A doubled request, a lost acknowledgement, a lost request. -/
def exEvents : List NetEvent := [.client (.write (.groupRead ⟨7, none⟩)), .upDoubled, .upArrives, .upArrives, .downLost 1,
  .client (.datagram (tunnelRequest 0 0 [])), .downArrives, .client (.write (.groupRead ⟨7, none⟩)), .upLost 0,
  .client (.write (.groupWriteReq ⟨7, none⟩ ⟨.float16, 0x0C3D⟩)), .upArrives]

example : (exNet.run exEvents).gateway.accepted.Sublist (framesOf ((exNet.run exEvents).client.wire.drop 0)) :=
  (c62_once exNet_idle rfl (by
    intro e he
    simp only [exEvents, List.mem_cons, List.not_mem_nil, or_false] at he
    rcases he with rfl | rfl | rfl | rfl | rfl | rfl | rfl | rfl | rfl | rfl | rfl <;>
      first | trivial | exact ⟨by decide, by decide, by decide⟩)).1

example : (exNet.run exEvents).gateway =
    ⟨0, 1, [cemi 0x11 [] (readTelegram 0x0E89), cemi 0x11 [] (writeTelegram 0x0E89 .float16 0x0C3D)]⟩ := by decide +kernel

example : (exNet.run ([.groupRead ⟨7, none⟩, .groupWriteReq ⟨7, none⟩ ⟨.float16, 0x0C3D⟩].flatMap calmly)).gateway.accepted =
    framesOf [tunnelRequest 0 255 (cemi 0x11 [] (readTelegram 0x0E89)),
      tunnelRequest 0 0 (cemi 0x11 [] (writeTelegram 0x0E89 .float16 0x0C3D))] := by
  rw [(c63_partial exNet_idle _).2]
  decide +kernel

example : (exNet.run [.client (.write (.groupRead ⟨7, none⟩)), .upLost 0]).Idle := (c63_lost_request exNet_idle _).1

theorem exNet_sends : Sends exNet.client (.groupRead ⟨7, none⟩) (cemi 0x11 [] (readTelegram 0x0E89)) ∧
    Sends (Client.step exNet.client (.write (.groupRead ⟨7, none⟩))) (.groupWriteReq ⟨7, none⟩ ⟨.float16, 0x0C3D⟩)
      (cemi 0x11 [] (writeTelegram 0x0E89 .float16 0x0C3D)) :=
  ⟨⟨rfl, rfl, rfl, 0, 255, by decide +kernel⟩, ⟨by decide +kernel, by decide +kernel, by decide +kernel, 0, 255,
    by decide +kernel⟩⟩

example : (exNet.run [.client (.write (.groupRead ⟨7, none⟩)), .upArrives, .downLost 0,
    .client (.write (.groupWriteReq ⟨7, none⟩ ⟨.float16, 0x0C3D⟩)), .upArrives, .downArrives]).gateway.accepted =
    [cemi 0x11 [] (readTelegram 0x0E89)] := (c63_refuted exNet_idle exNet_sends.1 exNet_sends.2).2.1

example : (exNet.run [.client (.write (.groupRead ⟨7, none⟩)), .client (.write (.groupWriteReq ⟨7, none⟩ ⟨.float16, 0x0C3D⟩)),
    .upArrives, .upArrives, .downArrives, .downArrives]).gateway.accepted = [cemi 0x11 [] (readTelegram 0x0E89)] :=
  (c63_early_refuted exNet_idle exNet_sends.1 exNet_sends.2).2.1

end Knx
