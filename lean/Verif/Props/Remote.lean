import Verif.Spec.Remote
import Verif.Props.Exact
import Verif.Props.TunnelProgram

/-! # C101: where the datagrams of the client go to and come from -/

namespace Knx
open Spec

theorem bound_called (b : Bound) (e : Client.Event) :
    ∃ new, (Client.step b.client e).wire = b.client.wire ++ new ∧
      b.called (Client.step b.client e) =
        { b with client := Client.step b.client e, sent := b.sent ++ new.map fun f => (b.remote, f) } := by
  obtain ⟨new, h, -⟩ := c49_wire b.client e
  refine ⟨new, h, ?_⟩
  unfold Bound.called
  rw [h, List.drop_left]

theorem bound_step (b : Bound) (e : Bound.Event) :
    ∃ new, (Bound.step b e).sent = b.sent ++ new.map (fun f => (b.remote, f)) ∧ (Bound.step b e).remote = b.remote ∧
      (Bound.step b e).client.wire = b.client.wire ++ new ∧
      (Bound.step b e).client = Client.run b.client ((toldBy b.remote e).toList) := by
  have h : ∀ x, toldBy b.remote e = some x → Bound.step b e = b.called (Client.step b.client x) := by
    intro x hx
    cases e <;> simp only [toldBy] at hx
    case arrives s d => split_ifs at hx with hs; cases hx; exact if_pos hs
    all_goals (cases hx; rfl)
  have h0 : toldBy b.remote e = none → Bound.step b e = b := by
    intro hx
    cases e <;> simp only [toldBy] at hx
    case arrives s d => split_ifs at hx with hs; exact if_neg hs
    all_goals cases hx
  rcases hx : toldBy b.remote e with _ | x
  · rw [h0 hx]
    exact ⟨[], by simp, rfl, by simp, rfl⟩
  · rw [h x hx]
    obtain ⟨new, h1, h2⟩ := bound_called b x
    rw [h2]
    exact ⟨new, rfl, rfl, h1, rfl⟩

/-- What a client with a remote endpoint does in any sequence of events: what `Client.run` does without the datagrams from
elsewhere, and whatever it sends goes to the remote endpoint. -/
theorem bound_run (b : Bound) (es : List Bound.Event) :
    ∃ new, (Bound.run b es).sent = b.sent ++ new.map (fun f => (b.remote, f)) ∧ (Bound.run b es).remote = b.remote ∧
      (Bound.run b es).client.wire = b.client.wire ++ new ∧
      (Bound.run b es).client = Client.run b.client (es.filterMap (toldBy b.remote)) := by
  induction es generalizing b with
  | nil => exact ⟨[], by simp [Bound.run], rfl, by simp [Bound.run], rfl⟩
  | cons e es ih =>
    obtain ⟨n1, h1, h2, h3, h4⟩ := bound_step b e
    obtain ⟨n2, g1, g2, g3, g4⟩ := ih (Bound.step b e)
    have hr : Bound.run b (e :: es) = Bound.run (Bound.step b e) es := rfl
    rw [hr]
    refine ⟨n1 ++ n2, ?_, g2.trans h2, ?_, ?_⟩
    · rw [g1, h1, h2, List.map_append, List.append_assoc]
    · rw [g3, h3, List.append_assoc]
    · rw [g4, h4, h2]
      cases hx : toldBy b.remote e with
      | none => rw [List.filterMap_cons_none hx]; rfl
      | some x => rw [List.filterMap_cons_some hx]; rfl

/-- The data endpoint is named in a connect response only. -/
theorem data_connected {d : Msg} {ep : Endpoint} (h : dataEndpoint d = some ep) : ∃ n, connectedTo d = some n := by
  unfold dataEndpoint at h
  split at h
  · rename_i h' v a b x1 x2 c st len proto i1 i2 i3 i4 p1 p2 y1 y2 y3 y4
    split_ifs at h with hc
    obtain ⟨rfl, rfl, rfl, rfl, rfl, -, -⟩ := hc
    exact ⟨c.toNat, by simp [connectedTo]⟩
  · cases h

/-- C101 is false of every server with a data endpoint of its own: when the client has taken its connect response, no
tunnelling request or acknowledgement it sends later goes to the data endpoint. -/
theorem c101_refuted {b : Bound} {d : Msg} {ep : Endpoint} (_hd : dataEndpoint d = some ep)
    (hne : dataGoesTo b.remote ep ≠ b.remote) (es : List Bound.Event) {p : Endpoint × Msg} {l : List (Endpoint × Msg)}
    (hs : (Bound.run b (.arrives b.remote d :: es)).sent = b.sent ++ l) (hp : p ∈ l)
    (_ht : isTunnelling p.2) : p.1 ≠ dataGoesTo b.remote ep := by
  obtain ⟨new, h1, -⟩ := bound_run b (.arrives b.remote d :: es)
  rw [h1] at hs
  rw [← List.append_cancel_left hs] at hp
  obtain ⟨f, -, rfl⟩ := List.mem_map.1 hp
  exact fun h => hne h.symm

/-- C101 is false in particular of every message written after such a connect response: the client is connected, and the
message goes as a tunnelling request to the endpoint it was made with. -/
theorem c101_written_refuted {b : Bound} (hm : b.client.state.medium = .knxnetIp) (ht : b.client.transport = true) {d : Msg}
    {ep : Endpoint} (hd : dataEndpoint d = some ep) (hne : dataGoesTo b.remote ep ≠ b.remote) {m : InMsg}
    (hp : Presentable m) {f : Msg} (hf : (encodeMsg m (Bound.step b (.arrives b.remote d)).client.state).1 = .ok f)
    (_hf : isTunnelling f) :
    (Bound.run b [.arrives b.remote d, .write m]).sent = (Bound.step b (.arrives b.remote d)).sent ++ [(b.remote, f)] ∧
    b.remote ≠ dataGoesTo b.remote ep := by
  refine ⟨?_, Ne.symm hne⟩
  obtain ⟨n, hn⟩ := data_connected hd
  obtain ⟨new, h1, h2, h3, h4⟩ := bound_step b (.arrives b.remote d)
  simp only [toldBy, if_true, Option.toList] at h4
  have hc : (Bound.step b (.arrives b.remote d)).client.connected = true := by
    rw [h4]; exact (c48_partial hm hn).2.2 (Or.inr ht)
  have ht' : (Bound.step b (.arrives b.remote d)).client.transport = true := by
    rw [h4]; exact step_transport (e := .datagram d) ht (by simp)
  have hw := (c49_sends hc ht' m).2 ⟨hp, f, hf⟩
  obtain ⟨f', hw⟩ := hw
  have hf' := ((c49_written m _).1 hw).2.2.2
  rw [hf] at hf'
  cases hf'
  obtain ⟨new', g1, g2, g3, g4⟩ := bound_step (Bound.step b (.arrives b.remote d)) (.write m)
  simp only [toldBy, Option.toList] at g4
  have hx : (Bound.step (Bound.step b (.arrives b.remote d)) (.write m)).client.wire = _ := (congrArg Client.wire g4).trans hw
  rw [g3] at hx
  have := List.append_cancel_left hx
  subst this
  show (Bound.step (Bound.step b (.arrives b.remote d)) (.write m)).sent = _
  rw [g1, h2]
  rfl

/-- C101 is false of what comes from such a data endpoint: the client never hears it, so that it acknowledges no request of the
server. -/
theorem c101_deaf_refuted {b : Bound} {d : Msg} {ep : Endpoint} (_hd : dataEndpoint d = some ep)
    (hne : dataGoesTo b.remote ep ≠ b.remote) (es : List Bound.Event) (x : Msg) :
    Bound.step (Bound.run b (.arrives b.remote d :: es)) (.arrives (dataGoesTo b.remote ep) x) =
      Bound.run b (.arrives b.remote d :: es) := by
  obtain ⟨new, -, h2, -⟩ := bound_run b (.arrives b.remote d :: es)
  exact if_neg (by rw [h2]; exact hne)

/-- C101 for servers without a data endpoint of their own: all tunnelling datagrams go to the data endpoint and are in the
order of the client's calls, what comes from there is heard and nothing else is. Missing from the full claim: servers with
another data endpoint (`c101_refuted`). -/
theorem c101_partial {b : Bound} {d : Msg} {ep : Endpoint} (_hd : dataEndpoint d = some ep)
    (he : dataGoesTo b.remote ep = b.remote) (es : List Bound.Event) :
    (Bound.run b (.arrives b.remote d :: es)).client =
      Client.run b.client (.datagram d :: es.filterMap (toldBy (dataGoesTo b.remote ep))) ∧
    ∃ new, (Bound.run b (.arrives b.remote d :: es)).client.wire = b.client.wire ++ new ∧
      (Bound.run b (.arrives b.remote d :: es)).sent = b.sent ++ new.map fun f => (dataGoesTo b.remote ep, f) := by
  obtain ⟨new, h1, -, h3, h4⟩ := bound_run b (.arrives b.remote d :: es)
  rw [he]
  refine ⟨?_, new, h3, h1⟩
  rw [h4, List.filterMap_cons_some (b := .datagram d) (by simp [toldBy])]

/-- C101: before the connection there is one endpoint only: the connect request goes to the endpoint the client was made with,
and nothing is sent elsewhere whatever arrives from elsewhere. -/
theorem c101_connect (a : BitVec 32) (port : Int) (r : Endpoint) (s : State) (others : List (Endpoint × Msg))
    (ho : ∀ x ∈ others, x.1 ≠ r) :
    ∃ f, (encodeMsg (.connectReq a port a port) s).1 = .ok f ∧
      (Bound.run (Bound.init a port r s) (.made :: others.map fun x => .arrives x.1 x.2)).sent = [(r, f)] := by
  obtain ⟨f, h1, h2⟩ := c49_made (Client.init a port s)
  refine ⟨f, h1, ?_⟩
  obtain ⟨new, g1, -, g3, g4⟩ := bound_run (Bound.init a port r s) (.made :: others.map fun x => .arrives x.1 x.2)
  have hn : (others.map fun x => Bound.Event.arrives x.1 x.2).filterMap (toldBy r) = [] := by
    rw [List.filterMap_eq_nil_iff]
    intro e he
    obtain ⟨x, hx, rfl⟩ := List.mem_map.1 he
    exact if_neg (ho x hx)
  have hr : (Bound.init a port r s).remote = r := rfl
  rw [hr, List.filterMap_cons_some (f := toldBy r) (b := .made) rfl, hn] at g4
  have hw : (Client.run (Bound.init a port r s).client [.made]).wire = [f] := h2
  rw [g4, hw] at g3
  have : new = [f] := g3.symm
  rw [g1, this]
  rfl

/-- A client of the server 192.168.0.10:3671. -/
def exBound : Bound := { client := { exClient with connected := false }, remote := (0xC0A8000A, 3671) }

/-- The connect response of a server with data port 3672. -/
def exOther : Msg := [0x06, 0x10, 0x02, 0x06, 0, 20, 1, 0, 8, 1, 192, 168, 0, 10, 0x0E, 0x58, 4, 4, 0x11, 1]

example : ((0xC0A8000A, 3672) : Endpoint) ≠ exBound.remote ∧
    (Bound.run exBound [.arrives exBound.remote exOther, .write (.groupRead ⟨7, none⟩)]).sent =
      (Bound.step exBound (.arrives exBound.remote exOther)).sent ++
        [((0xC0A8000A, 3671), tunnelRequest 1 0 [0x11, 0x00, 0x96, 0xE0, 0, 0, 0x0E, 0x89, 1, 0, 0])] :=
  ⟨by decide, (c101_written_refuted (b := exBound) (ep := (0xC0A8000A, 3672)) rfl rfl (by decide +kernel) (by decide) (m := .groupRead ⟨7, none⟩) trivial
    (by decide +kernel) (by decide)).1⟩

example : Bound.step (Bound.run exBound [.arrives exBound.remote exOther])
      (.arrives (0xC0A8000A, 3672) (tunnelRequest 1 0 (cemi 0x29 [] exTelegram))) =
    Bound.run exBound [.arrives exBound.remote exOther] :=
  c101_deaf_refuted (b := exBound) (ep := (0xC0A8000A, 3672)) (d := exOther) (by decide +kernel) (by decide) [] _

example (p : Endpoint × Msg) (hp : p ∈ [((0xC0A8000A, 3671), stateRequest 1 0xC0A80001 3671),
      ((0xC0A8000A, 3671), tunnelRequest 1 0 [0x11, 0x00, 0x96, 0xE0, 0, 0, 0x0E, 0x89, 1, 0, 0])]) (ht : isTunnelling p.2) :
    p.1 ≠ ((0xC0A8000A, 3672) : Endpoint) :=
  c101_refuted (b := exBound) (ep := (0xC0A8000A, 3672)) (d := exOther) (by decide +kernel) (by decide)
    [.write (.groupRead ⟨7, none⟩)] (by decide +kernel) hp ht

example : (Bound.run { exBound with remote := (0xC0A8000A, 3672) } [.arrives (0xC0A8000A, 3672) exOther,
      .arrives (0xC0A8000B, 3672) exOther]).client = Client.run exBound.client [.datagram exOther] :=
  (c101_partial (b := { exBound with remote := (0xC0A8000A, 3672) }) (ep := (0xC0A8000A, 3672)) (d := exOther)
    (by decide +kernel) (by decide) [.arrives (0xC0A8000B, 3672) exOther]).1

end Knx
