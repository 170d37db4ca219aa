import Verif.Props.Gateway
import Verif.Spec.Refusal

/-! # C108: a server that refuses a request -/

namespace Knx
open Spec Client

/-- The client and an acknowledgement, whatever its status. -/
theorem status_step {c : Client} (hm : c.state.medium = .knxnetIp) (ch st : Nat) (q : Byte) :
    (Client.step c (.datagram (ackFrame ch q.toNat st))).wire = c.wire ∧
    (Client.step c (.datagram (ackFrame ch q.toNat st))).state.medium = .knxnetIp ∧
    (Client.step c (.datagram (ackFrame ch q.toNat st))).state.chan = c.state.chan ∧
    (Client.step c (.datagram (ackFrame ch q.toNat st))).state.seqLocal =
      if c.state.seqLocal = q.toNat then (q + 1).toNat else c.state.seqLocal := by
  have ha := datagram_alike (ackFrame ch q.toNat st) c
  have hw := (c61_other (c := c) hm (d := ackFrame ch q.toNat st) (fun body h => by cases h)
    (fun l1 l2 x c q st m h => by cases h)).1
  have hch := c44_channel hm [.decode (ackFrame ch q.toNat st)]
  have hl := c43_local hm [.decode (ackFrame ch q.toNat st)]
  simp only [afterAll, List.foldl, after, localAfter, ackCounter_ack, channelAfter] at hl hch
  refine ⟨hw, ?_, ?_, ?_⟩
  · rw [ha.medium, (c33_tables _ _).1, hm]
  · rw [ha.chan, hch]
    simp [connectedTo, disconnected, ackFrame]
  · rw [ha.counter, hl]
    have hq := q.isLt
    have h1 : q.toNat % 256 = q.toNat := by omega
    rw [h1]
    by_cases he : c.state.seqLocal = q.toNat
    · rw [if_pos (by rw [he]), if_pos he, he, BitVec.toNat_add]
      rfl
    · rw [if_neg (fun h => he (Option.some.inj h).symm), if_neg he]

/-- Client and server have parted: the client is one counter ahead, and so are the requests under way; no acknowledgement
under way is the one it waits for. -/
structure Astray (g : Gateway) (n : Net) : Prop where
  medium : n.client.state.medium = .knxnetIp
  chan : n.client.state.chan = some n.gateway.chan.toNat
  counter : n.client.state.seqLocal = (n.gateway.expected + 1).toNat
  up : ∀ d ∈ n.up, ∀ c q x, requestOf d = some (c, q, x) → q = n.gateway.expected + 1
  down : ∀ d ∈ n.down, ∃ ch st, ∃ q : Byte, d = ackFrame ch q.toNat st ∧ q ≠ n.gateway.expected + 1
  still : n.gateway = g

theorem Astray.client {g : Gateway} {n : Net} (h : Astray g n) {c : Client} (hs : Alike n.client.state c.state) {ds : List Msg}
    (hn : Numbered n.client.state ds) : Astray g { n with client := c, up := n.up ++ ds } := by
  refine ⟨hs.medium.trans h.medium, hs.chan.trans h.chan, hs.counter.trans h.counter, ?_, h.down, h.still⟩
  intro d hd ch q x hr
  rcases List.mem_append.1 hd with hd | hd
  · exact h.up d hd ch q x hr
  · obtain ⟨k, -, -, k3⟩ := hn d hd ch q x hr
    rw [k3, h.counter, ofNat_self]

theorem Astray.arrives {g : Gateway} {n : Net} (h : Astray g n) : Astray g (n.step .upArrives) := by
  rcases hu : n.up with _ | ⟨d, ds⟩
  · unfold Net.step
    simp only [hu]
    exact h
  have hg : n.gateway.receive d = (n.gateway, []) := by
    unfold Gateway.receive
    rcases hr : requestOf d with _ | ⟨c, q, x⟩
    · rfl
    · have hq := h.up d (by rw [hu]; exact List.mem_cons_self) c q x hr
      have h1 : q ≠ n.gateway.expected := by rw [hq]; exact add_one_ne _
      have h2 : q ≠ n.gateway.expected - 1 := by
        rw [hq]
        generalize n.gateway.expected = b
        revert b
        decide
      simp only [if_neg h1, if_neg h2, ite_self]
  unfold Net.step
  simp only [hu, hg, List.append_nil]
  exact ⟨h.medium, h.chan, h.counter, fun y hy => h.up y (by rw [hu]; exact List.mem_cons_of_mem _ hy), h.down, h.still⟩

theorem Astray.acked {g : Gateway} {n : Net} (h : Astray g n) : Astray g (n.step .downArrives) := by
  rcases hu : n.down with _ | ⟨d, ds⟩
  · unfold Net.step
    simp only [hu]
    exact h
  obtain ⟨ch, st, q, rfl, hq⟩ := h.down d (by rw [hu]; exact List.mem_cons_self)
  obtain ⟨w1, w2, w3, w4⟩ := status_step (c := n.client) h.medium ch st q
  rw [if_neg (by rw [h.counter]; exact fun e => hq (BitVec.eq_of_toNat_eq e).symm)] at w4
  unfold Net.step
  simp only [hu, w1, List.drop_length, List.append_nil]
  exact ⟨w2, w3.trans h.chan, w4.trans h.counter, h.up, fun y hy => h.down y (by rw [hu]; exact List.mem_cons_of_mem _ hy),
    h.still⟩

theorem Astray.step {g : Gateway} {n : Net} (h : Astray g n) {e : NetEvent} (he : Apart e) : Astray g (n.step e) := by
  have take : ∀ {l : List Msg} {d}, d ∈ l.take 1 ++ l → d ∈ l := fun hd =>
    (List.mem_append.1 hd).elim (fun h => List.mem_of_mem_take h) id
  cases e with
  | client e =>
    obtain ⟨new, h1, h2, -⟩ := step_wire h.medium e
    have := h.client (apart_alike h.medium he) h2
    unfold Net.step
    simp only [h1, List.drop_left]
    exact this
  | upLost i => exact ⟨h.medium, h.chan, h.counter, fun d hd => h.up d (List.mem_of_mem_eraseIdx hd), h.down, h.still⟩
  | upDoubled => exact ⟨h.medium, h.chan, h.counter, fun d hd => h.up d (take hd), h.down, h.still⟩
  | upArrives => exact h.arrives
  | downLost i => exact ⟨h.medium, h.chan, h.counter, h.up, fun d hd => h.down d (List.mem_of_mem_eraseIdx hd), h.still⟩
  | downDoubled => exact ⟨h.medium, h.chan, h.counter, h.up, fun d hd => h.down d (take hd), h.still⟩
  | downArrives => exact h.acked

theorem Astray.refuse {g : Gateway} {n : Net} (h : Astray g n) (st : Byte) : Astray g (n.refuse st) := by
  unfold Net.refuse
  rcases hu : n.up with _ | ⟨d, ds⟩
  · exact h
  · simp only
    rcases hr : requestOf d with _ | ⟨c, q, x⟩
    · exact h.arrives
    · have hq := h.up d (by rw [hu]; exact List.mem_cons_self) c q x hr
      simp only
      rw [if_neg (fun hc => add_one_ne _ (hq.symm.trans hc.2))]
      exact h.arrives

theorem Astray.run {g : Gateway} {n : Net} (h : Astray g n) {es : List RefusalEvent} (he : ∀ e ∈ es, ApartOr e) :
    Astray g (n.runOr es) := by
  induction es generalizing n with
  | nil => exact h
  | cons e es ih =>
    refine ih ?_ fun e h => he e (List.mem_cons_of_mem _ h)
    have h1 := he e List.mem_cons_self
    cases e with
    | net e => exact h.step h1
    | refused st => exact h.refuse st

/-- What a refusal under way looks like. -/
theorem refuse_net {n : Net} (h : n.Idle) {m : InMsg} {x : Msg} (hs : Sends n.client m x) (st : Byte) :
    (n.step (.client (.write m))).refuse st =
      { n with client := Client.step n.client (.write m)
               down := [ackFrame n.gateway.chan.toNat n.gateway.expected.toNat st.toNat] } := by
  obtain ⟨w, -, -⟩ := sends_step h.medium h.chan hs
  have h1 : n.step (.client (.write m)) =
      { n with client := Client.step n.client (.write m), up := [tunnelRequest n.gateway.chan n.gateway.expected x] } := by
    unfold Net.step
    simp only [w, h.up, List.drop_left, List.nil_append, ofNat_self, h.counter]
  rw [h1]
  unfold Net.refuse
  simp only [requestOf_tunnel, and_self, if_true, h.down, List.nil_append]
  rw [h.up]

/-- C108 is false for every refusal of which the client hears, whatever its status: the client takes it for an acceptance, and
from then on the server accepts nothing that the client writes on the connection, whatever happens: its frames and the counter
it expects remain. -/
theorem c108_refuted {n : Net} (h : n.Idle) {m : InMsg} {x : Msg} (hs : Sends n.client m x) (st : Byte)
    {es : List RefusalEvent} (he : ∀ e ∈ es, ApartOr e) :
    ((((n.step (.client (.write m))).refuse st).step .downArrives).runOr es).gateway = n.gateway := by
  refine (Astray.run ?_ he).still
  rw [refuse_net h hs]
  have ha := write_alike m n.client
  obtain ⟨w1, w2, w3, w4⟩ := status_step (c := Client.step n.client (.write m)) (ha.medium.trans h.medium)
    n.gateway.chan.toNat st.toNat n.gateway.expected
  rw [if_pos (ha.counter.trans h.counter)] at w4
  unfold Net.step
  simp only [w1, List.drop_length, List.append_nil]
  exact ⟨w2, w3.trans (ha.chan.trans h.chan), w4, by simp [h.up], by simp, rfl⟩

example : ((((exNet.step (.client (.write (.groupRead ⟨7, none⟩)))).refuse 0x29).step .downArrives).runOr
    [.net (.client (.write (.groupWriteReq ⟨7, none⟩ ⟨.float16, 0x0C3D⟩))), .net .upArrives,
      .net (.client (.write (.groupRead ⟨7, none⟩))), .refused 0x29, .net .downArrives]).gateway = exNet.gateway :=
  c108_refuted exNet_idle exNet_sends.1 0x29 (by
    intro e he
    simp only [List.mem_cons, List.not_mem_nil, or_false] at he
    rcases he with rfl | rfl | rfl | rfl | rfl <;> trivial)

/-- C108 for refusals that are lost: the client hears nothing, and is again at the counter the server expects. -/
theorem c108_partial {n : Net} (h : n.Idle) {m : InMsg} {x : Msg} (hs : Sends n.client m x) (st : Byte) :
    (((n.step (.client (.write m))).refuse st).step (.downLost 0)).Idle := by
  rw [refuse_net h hs]
  have ha := write_alike m n.client
  exact ⟨ha.medium.trans h.medium, ha.chan.trans h.chan, ha.counter.trans h.counter, h.up, rfl⟩

example : (((exNet.step (.client (.write (.groupRead ⟨7, none⟩)))).refuse 0x29).step (.downLost 0)).Idle :=
  c108_partial exNet_idle exNet_sends.1 0x29

end Knx
