import Verif.Spec.Tunnels
import Verif.Props.Gateway
import Verif.Props.EndToEnd
import Verif.Props.TunnelProgram

/-! # C94, C95: from one installation to another, over tunnels -/

namespace Knx
open Spec Client

theorem sublist_related {α β : Type} {R : α → β → Prop} {as as' : List α} {bs : List β} (hs : as'.Sublist as)
    (h : List.Forall₂ R as bs) : ∃ bs', bs'.Sublist bs ∧ List.Forall₂ R as' bs' := by
  induction hs generalizing bs with
  | slnil => exact ⟨[], List.nil_sublist _, .nil⟩
  | cons a _ ih =>
    cases h with
    | cons h1 h2 =>
      obtain ⟨bs', k1, k2⟩ := ih h2
      exact ⟨bs', k1.cons _, k2⟩
  | cons_cons a _ ih =>
    cases h with
    | cons h1 h2 =>
      obtain ⟨bs', k1, k2⟩ := ih h2
      exact ⟨_ :: bs', k1.cons_cons _, .cons h1 k2⟩

theorem firstDisplayable_read (gB : GroupObjectTable) (vs : List Int) : FirstDisplayable (fanOut .read .ind gB vs 0) := by
  unfold fanOut
  cases gB.filter fun p => p.1.value ∈ vs with
  | nil => exact trivial
  | cons p l =>
    show Displayable _
    unfold Displayable
    simp

/-- What any telegram of a request delivers to the other installation. -/
theorem telegram_comes {aB : AssocTable} {gB : GroupObjectTable} {t : Telegram} (h1 : t.IsGroup) (h2 : t.IsData)
    (h0 : t.destination ≠ 0) {svc : Svc} (hs : t.service = some svc) {l : List OutMsg}
    (h : (t.destination ∉ aB.at_.gas.map Addr.fs ∧ l = []) ∨
      ∃ vs, LeadsTo aB t.destination vs ∧ l = fanOut svc .ind gB vs t.value ∧ FirstDisplayable l)
    {x' : Msg} (hx : Comes (cemi 0x11 [] t) x') {s : State} (ha : s.assoc = some aB) (hg : s.got = some gB) {f : Msg}
    {pre : List OutMsg} (hc : Carries s x' f pre) : (decodeMsg f s).1 = .ok (.list (pre ++ l)) := by
  obtain ⟨info, c1, c2, src, hi, rfl⟩ := hx
  rw [arrival_cemi] at hc
  obtain ⟨g1, g2, g3, g4⟩ := arrived_facts c1 c2 src t
  rcases h with ⟨hn, rfl⟩ | ⟨vs, ⟨k1, k2, k3⟩, rfl, hf⟩
  · rw [List.append_nil]
    exact c30_foreign (k := .ind) ha (arrived_isGroup.2 h1) (.inl (g1.2 h2)) (by rw [g2]; exact hn) hi hc
  · have := c29_fanout_partial (s := s) (t := arrived c1 c2 src t) (k := .ind) (info := info)
      (f := f) (pre := pre) ha hg (arrived_isGroup.2 h1) (g1.2 h2) (by rw [g2]; exact h0)
      (by rw [g2]; exact k1) (by rw [g2]; exact k2) k3 hi hc (g3.trans hs)
    rw [g4] at this
    exact (this hf).1

/-- The frame of a request, whatever the state of its installation is otherwise, and what it delivers to the other one. -/
theorem received_frame {aA aB : AssocTable} {gA gB : GroupObjectTable} {m : InMsg} {l : List OutMsg}
    (h : Received aA aB gA gB m l) :
    ∃ x : Msg, (∀ sA : State, sA.assoc = some aA → sA.got = some gA → ∀ f, envelope sA x = some f →
        (encodeMsg m sA).1 = .ok f) ∧ (0 < x.length ∧ x.length ≤ 15) ∧
      ∀ x', Comes x x' → ∀ s : State, s.assoc = some aB → s.got = some gB → ∀ f pre, Carries s x' f pre →
        (decodeMsg f s).1 = .ok (.list (pre ++ l)) := by
  cases m with
  | groupWriteReq asap d =>
    obtain ⟨c, x, hc, ⟨h0, as, h1, h2⟩, hl⟩ := h
    obtain ⟨f1, f2, f3, f4, f5, f6, f7⟩ := writeTelegram_facts x c d.raw
    refine ⟨cemi 0x11 [] (writeTelegram x c d.raw), fun sA ha hg f hf => c28_write_succeeds ha hg hc h1 h2 hf, ?_, ?_⟩
    · rw [cemi_length]
      simp only [List.length_nil]
      omega
    · intro x' hx s ha hg f pre hcar
      exact telegram_comes f1 f2 (by rw [f3]; exact h0) f4 (by rw [f3, f5]; exact hl) hx ha hg hcar
  | groupRead asap =>
    obtain ⟨x, ⟨h0, as, h1, h2⟩, hl⟩ := h
    obtain ⟨f1, f2, f3, f4, f5⟩ := readTelegram_facts x
    refine ⟨cemi 0x11 [] (readTelegram x), fun sA ha hg f hf => c28_read_succeeds ha h1 h2 hf, ?_, ?_⟩
    · rw [cemi_length]
      simp [readTelegram, request]
    · intro x' hx s ha hg f pre hcar
      refine telegram_comes f1 f2 (by rw [f3]; exact h0) f4 ?_ hx ha hg hcar
      rw [f3, f5]
      refine hl.imp_right fun ⟨vs, k1, k2⟩ => ⟨vs, k1, k2, ?_⟩
      rw [k2]
      exact firstDisplayable_read gB vs
  | _ => exact h.elim

/-- The frame that a client with these tables sends for a message. -/
def FrameOf (aA : AssocTable) (gA : GroupObjectTable) (m : InMsg) (x : Msg) : Prop :=
  ∀ sA : State, sA.assoc = some aA → sA.got = some gA → ∀ f, envelope sA x = some f → (encodeMsg m sA).1 = .ok f

/-- The frames of the requests of an installation, and what each delivers to the other one. -/
theorem received_frames {aA aB : AssocTable} {gA gB : GroupObjectTable} {ms : List InMsg} {ls : List (List OutMsg)}
    (h : List.Forall₂ (Received aA aB gA gB) ms ls) :
    ∃ fs : List Msg, List.Forall₂ (FrameOf aA gA) ms fs ∧ List.Forall₂ (fun x l => (0 < x.length ∧ x.length ≤ 15) ∧
      ∀ x', Comes x x' → ∀ s : State, s.assoc = some aB → s.got = some gB → ∀ f pre, Carries s x' f pre →
        (decodeMsg f s).1 = .ok (.list (pre ++ l))) fs ls := by
  induction h with
  | nil => exact ⟨[], .nil, .nil⟩
  | cons h1 _ ih =>
    obtain ⟨fs, k1, k2⟩ := ih
    obtain ⟨x, j1, j2⟩ := received_frame h1
    exact ⟨x :: fs, .cons j1 k1, .cons j2 k2⟩

/-- What a client puts on the wire for a request. -/
theorem write_frames {c : Client} (hm : c.state.medium = .knxnetIp) (hch : c.state.chan ≠ none) {aA : AssocTable}
    {gA : GroupObjectTable} (ha : c.state.assoc = some aA) (hg : c.state.got = some gA) {m : InMsg} {x : Msg}
    (h : FrameOf aA gA m x) : ∃ new, (Client.step c (.write m)).wire = c.wire ++ new ∧ (framesOf new).Sublist [x] := by
  rcases write_wire m c with hw | ⟨f, hw⟩
  · exact ⟨[], by rw [hw, List.append_nil], by simp [framesOf]⟩
  · refine ⟨[f], hw, ?_⟩
    obtain ⟨-, -, -, he⟩ := (c49_written m c).1 hw
    obtain ⟨n, hn⟩ := Option.ne_none_iff_exists'.1 hch
    have := h c.state ha hg _ (by unfold envelope; rw [hm, hn]; rfl)
    rw [he] at this
    cases this
    simp [framesOf, requestOf_tunnel]

/-- The frames on the wire of the client are those of the messages written, some of them left out. -/
theorem net_frames {k : Nat} {n : Net} (ht : Tracked k n) {aA : AssocTable} {gA : GroupObjectTable}
    (ha : n.client.state.assoc = some aA) (hg : n.client.state.got = some gA) {es : List NetEvent} (he : ∀ e ∈ es, Apart e)
    {fs : List Msg} (hf : List.Forall₂ (FrameOf aA gA) (writesOf es) fs) :
    ∃ new, (n.run es).client.wire = n.client.wire ++ new ∧ (framesOf new).Sublist fs := by
  induction es generalizing n fs with
  | nil => exact ⟨[], by simp [Net.run], List.nil_sublist _⟩
  | cons e es ih =>
    have hmed := ht.medium
    have hch : n.client.state.chan ≠ none := by rw [ht.chan]; simp
    have ht' := tracked_step ht (he e List.mem_cons_self)
    have go : ∀ (fs1 fs2 : List Msg), fs = fs1 ++ fs2 → List.Forall₂ (FrameOf aA gA) (writesOf es) fs2 →
        (n.step e).client.state.wiring = n.client.state.wiring →
        (∃ new, (n.step e).client.wire = n.client.wire ++ new ∧ (framesOf new).Sublist fs1) →
        ∃ new, (n.run (e :: es)).client.wire = n.client.wire ++ new ∧ (framesOf new).Sublist fs := by
      rintro fs1 fs2 rfl h2 hw ⟨new1, n1, n2⟩
      simp only [State.wiring, Prod.mk.injEq] at hw
      obtain ⟨new2, n3, n4⟩ := ih ht' (hw.2.1.trans ha) (hw.2.2.trans hg) (fun e h => he e (List.mem_cons_of_mem _ h)) h2
      refine ⟨new1 ++ new2, ?_, ?_⟩
      · show ((n.step e).run es).client.wire = _
        rw [n3, n1, List.append_assoc]
      · rw [framesOf_append]
        exact n2.append n4
    have quiet : ∀ e : Client.Event, (∀ m, e ≠ .write m) → ∃ new, (Client.step n.client e).wire = n.client.wire ++ new ∧
        (framesOf new).Sublist [] := by
      intro e h
      obtain ⟨new, n1, -, n2⟩ := step_wire hmed e
      refine ⟨new, n1, ?_⟩
      have : framesOf new = [] := by
        unfold framesOf
        rw [List.filterMap_eq_nil_iff]
        intro d hd
        rw [n2 h d hd]
        rfl
      rw [this]
    have same : (n.step e).client = n.client → writesOf (e :: es) = writesOf es →
        ∃ new, (n.run (e :: es)).client.wire = n.client.wire ++ new ∧ (framesOf new).Sublist fs := by
      intro h1 h2
      rw [h2] at hf
      exact go [] fs rfl hf (by rw [h1]) ⟨[], by rw [h1, List.append_nil], by simp [framesOf]⟩
    cases e with
    | client e =>
      cases e with
      | write m =>
        change List.Forall₂ _ (m :: writesOf es) fs at hf
        cases hf with
        | cons h1 h2 =>
          rename_i x fs2
          exact go [x] fs2 rfl h2 (step_wiring _ _) (write_frames hmed hch ha hg h1)
      | made => exact go [] fs rfl hf (step_wiring _ _) (quiet .made nofun)
      | lost => exact go [] fs rfl hf (step_wiring _ _) (quiet .lost nofun)
      | datagram d => exact go [] fs rfl hf (step_wiring _ _) (quiet (.datagram d) nofun)
    | upLost i => exact same rfl rfl
    | upDoubled => exact same rfl rfl
    | upArrives =>
      refine same ?_ rfl
      unfold Net.step
      rcases n.up with _ | ⟨d, ds⟩ <;> rfl
    | downLost i => exact same rfl rfl
    | downDoubled => exact same rfl rfl
    | downArrives =>
      rcases hd : n.down with _ | ⟨d, ds⟩
      · refine same ?_ rfl
        unfold Net.step
        simp only [hd]
      · have hc : (n.step .downArrives).client = Client.step n.client (.datagram d) := by
          unfold Net.step
          simp only [hd]
        refine go [] fs rfl hf ?_ ?_
        · rw [hc]
          exact step_wiring _ _
        · rw [hc]
          exact quiet _ nofun

/-- The frames the server accepts are those of the messages written, some of them left out. -/
theorem accepted_frames {n : Net} (h : n.Idle) (hw : n.gateway.accepted = []) {aA : AssocTable} {gA : GroupObjectTable}
    (ha : n.client.state.assoc = some aA) (hg : n.client.state.got = some gA) {es : List NetEvent} (he : ∀ e ∈ es, Apart e)
    {fs : List Msg} (hf : List.Forall₂ (FrameOf aA gA) (writesOf es) fs) : (n.run es).gateway.accepted.Sublist fs := by
  obtain ⟨new, h1, h2⟩ := net_frames (tracked_idle h hw) ha hg he hf
  have := (c62_once h hw he).1
  rw [h1, List.drop_left] at this
  exact this.trans h2

theorem forall₂_sub {α β γ : Type} {R : α → γ → Prop} {S : α → β → Prop} {U : β → γ → Prop} {as : List α} {bs : List β}
    {cs : List γ} (h1 : List.Forall₂ R as cs) (h2 : List.Forall₂ S as bs) (h : ∀ a b c, R a c → S a b → U b c) :
    List.Forall₂ U bs cs := by
  induction h1 generalizing bs with
  | nil => cases h2; exact .nil
  | cons k1 _ ih =>
    cases h2 with
    | cons j1 j2 => exact .cons (h _ _ _ k1 j1) (ih j2)

/-- What another client decodes of frames that come to it through its gateway. -/
theorem frames_delivered {cB : Client} (hmB : cB.state.medium = .knxnetIp) (hcB : cB.state.chan ≠ none) {aB : AssocTable}
    {gB : GroupObjectTable} (haB : cB.state.assoc = some aB) (hgB : cB.state.got = some gB) {fs : List Msg}
    {ls : List (List OutMsg)} (hf : List.Forall₂ (fun x l => (0 < x.length ∧ x.length ≤ 15) ∧
      ∀ x', Comes x x' → ∀ s : State, s.assoc = some aB → s.got = some gB → ∀ f pre, Carries s x' f pre →
        (decodeMsg f s).1 = .ok (.list (pre ++ l))) fs ls)
    {sent came foreign : List Msg} (hs : sent.Sublist fs) (hc : List.Forall₂ Comes sent came) {order : List Bool} {next : Byte}
    (hn : cB.state.seqRemote = next.toNat) {esB : List Client.Event} (hB : Session next esB (merge order came foreign))
    {others : List (List OutMsg)} (ho : List.Forall₂ (Delivers cB.state) foreign others) :
    ∃ got, got.Sublist ls ∧ got.length = sent.length ∧
      telegrams (Client.run cB esB).decoded = telegrams cB.decoded ++ (merge order got others).flatten := by
  obtain ⟨got, g1, g2⟩ := sublist_related hs hf
  have hd : List.Forall₂ (Delivers cB.state) came got := by
    refine forall₂_sub g2 hc ?_
    intro x x' l h1 h2 s hm ha hg f pre hcar
    exact h1.2 x' h2 s (ha.trans haB) (hg.trans hgB) f pre hcar
  exact ⟨got, g1, g2.length_eq.symm, (c46_partial hmB hcB hn hB (forall₂_merge order hd ho)).1⟩

/-- C94, what holds of it whatever the networks lose, double or repeat: the group requests that a tunnelling client writes
arrive at a tunnelling client of another installation each at most once and in the order written, as exactly what they are
there, between whatever else comes. `sent` are those of the frames accepted by the first gateway that have come to the second
one; the second client has as many telegrams of them. -/
theorem c94_once {n : Net} (h : n.Idle) (hw : n.gateway.accepted = []) {aA aB : AssocTable} {gA gB : GroupObjectTable}
    (haA : n.client.state.assoc = some aA) (hgA : n.client.state.got = some gA) {es : List NetEvent} (he : ∀ e ∈ es, Apart e)
    {ls : List (List OutMsg)} (hm : List.Forall₂ (Received aA aB gA gB) (writesOf es) ls)
    {sent came foreign : List Msg} (hs : sent.Sublist (n.run es).gateway.accepted) (hc : List.Forall₂ Comes sent came)
    {cB : Client} (hmB : cB.state.medium = .knxnetIp) (hcB : cB.state.chan ≠ none) (haB : cB.state.assoc = some aB)
    (hgB : cB.state.got = some gB) {next : Byte} (hn : cB.state.seqRemote = next.toNat) {order : List Bool}
    {esB : List Client.Event} (hB : Session next esB (merge order came foreign)) {others : List (List OutMsg)}
    (ho : List.Forall₂ (Delivers cB.state) foreign others) :
    ∃ got, got.Sublist ls ∧ got.length = sent.length ∧
      telegrams (Client.run cB esB).decoded = telegrams cB.decoded ++ (merge order got others).flatten := by
  obtain ⟨fs, f1, f2⟩ := received_frames hm
  exact frames_delivered hmB hcB haB hgB f2 (hs.trans (accepted_frames h hw haA hgA he f1)) hc hn hB ho

/-- A datagram leaves the transport alone. -/
theorem datagram_transport (c : Client) (d : Msg) : (Client.step c (.datagram d)).transport = c.transport := by
  show (datagramReceived d c).2.transport = _
  rw [datagram_eq]
  rcases decodeMsg d c.state with ⟨e | r, s⟩
  · rfl
  · exact (handleAll_effect r { c with state := s, decoded := c.decoded ++ Client.messages r }).1.2.1

/-- A request written when nothing is under way and acknowledged. -/
theorem calm_request {n : Net} (h : n.Idle) (hc : n.client.connected = true) (ht : n.client.transport = true) {aA : AssocTable}
    {gA : GroupObjectTable} (ha : n.client.state.assoc = some aA) (hg : n.client.state.got = some gA) {m : InMsg}
    (hd : formatIn m = .ok ()) {x : Msg} (hf : FrameOf aA gA m x) :
    (n.run (calmly m)).Idle ∧ (n.run (calmly m)).gateway.accepted = n.gateway.accepted ++ [x] ∧
    (n.run (calmly m)).client.connected = true ∧ (n.run (calmly m)).client.transport = true ∧
    (n.run (calmly m)).client.state.wiring = n.client.state.wiring := by
  obtain ⟨c, up, down, g⟩ := n
  have hi := h
  obtain ⟨h1, h2, h3, rfl, rfl⟩ := h
  simp only at h1 h2 h3 hc ht ha hg
  have he := hf c.state ha hg _ (by unfold envelope; rw [h1, h2]; rfl)
  obtain ⟨w1, w2, w3⟩ := sends_step h1 h2 (m := m) (x := x) ⟨hc, ht, hd, _, _, he⟩
  rw [h3, ofNat_self, ofNat_self] at w1
  have hm' := (write_alike m c).medium.trans h1
  have hrun : Net.run ⟨c, [], [], g⟩ (calmly m) = ⟨Client.step (Client.step c (.write m))
      (.datagram (ackFrame g.chan.toNat g.expected.toNat 0)), [], [],
      { g with expected := g.expected + 1, accepted := g.accepted ++ [x] }⟩ := by
    unfold Net.run calmly
    simp only [List.foldl_cons, List.foldl_nil]
    rw [written w1, List.nil_append, arrives_new, List.nil_append, arrives_ack hm']
  refine ⟨(calm_one hi m).1, ?_, ?_, ?_, ?_⟩ <;> rw [hrun]
  · exact step_kept w2 _
  · exact (datagram_transport _ _).trans w3
  · exact (step_wiring _ _).trans (step_wiring _ _)

theorem calm_requests {ms : List InMsg} {n : Net} (h : n.Idle) (hc : n.client.connected = true)
    (ht : n.client.transport = true) {aA : AssocTable}
    {gA : GroupObjectTable} (ha : n.client.state.assoc = some aA) (hg : n.client.state.got = some gA)
    (hd : ∀ m ∈ ms, formatIn m = .ok ()) {fs : List Msg} (hf : List.Forall₂ (FrameOf aA gA) ms fs) :
    (n.run (ms.flatMap calmly)).gateway.accepted = n.gateway.accepted ++ fs := by
  induction hf generalizing n with
  | nil => simp [Net.run]
  | @cons m x ms fs h1 _ ih =>
    obtain ⟨k1, k2, k3, k4, k5⟩ := calm_request h hc ht ha hg (hd m List.mem_cons_self) h1
    simp only [State.wiring, Prod.mk.injEq] at k5
    have := ih k1 k3 k4 (k5.2.1.trans ha) (k5.2.2.trans hg) fun m hm => hd m (List.mem_cons_of_mem _ hm)
    rw [k2, List.append_assoc] at this
    rw [← show ((n.run (calmly m)).run (ms.flatMap calmly)) = n.run ((m :: ms).flatMap calmly) by
      unfold Net.run; rw [List.flatMap_cons, List.foldl_append], this]
    rfl

theorem loggable {aA aB : AssocTable} {gA gB : GroupObjectTable} {m : InMsg} (hd : Loggable m) {l : List OutMsg}
    (h : Received aA aB gA gB m l) : formatIn m = .ok () := by
  cases m with
  | groupWriteReq asap d =>
    change d.repr = _
    rw [repr_eq]
    exact if_pos hd
  | groupRead asap => rfl
  | _ => exact h.elim

theorem loggables {aA aB : AssocTable} {gA gB : GroupObjectTable} {ms : List InMsg} (hd : ∀ m ∈ ms, Loggable m)
    {ls : List (List OutMsg)} (h : List.Forall₂ (Received aA aB gA gB) ms ls) : ∀ m ∈ ms, formatIn m = .ok () := by
  intro m hm
  obtain ⟨l, -, hl⟩ := forall₂_left h hm
  exact loggable (hd m hm) hl

/-- What holds of C94: all of the requests arrive if the datapoints can be displayed, each message is written when the
acknowledgement of the one before has arrived, and nothing is lost on the bus. Missing from the full claim: lost
acknowledgements (`c94_refuted`), messages written too early (`c63_early_refuted`) and lost requests
(`c63_lost_request`); what holds then is `c94_once`. -/
theorem c94_partial {n : Net} (h : n.Idle) (hw : n.gateway.accepted = []) (hcA : n.client.connected = true)
    (htA : n.client.transport = true) {aA aB : AssocTable} {gA gB : GroupObjectTable}
    (haA : n.client.state.assoc = some aA) (hgA : n.client.state.got = some gA) {ms : List InMsg}
    (hd : ∀ m ∈ ms, Loggable m) {ls : List (List OutMsg)} (hm : List.Forall₂ (Received aA aB gA gB) ms ls)
    {came foreign : List Msg} (hc : List.Forall₂ Comes (n.run (ms.flatMap calmly)).gateway.accepted came)
    {cB : Client} (hmB : cB.state.medium = .knxnetIp) (hcB : cB.state.chan ≠ none) (haB : cB.state.assoc = some aB)
    (hgB : cB.state.got = some gB) {next : Byte} (hn : cB.state.seqRemote = next.toNat) {order : List Bool}
    {esB : List Client.Event} (hB : Session next esB (merge order came foreign)) {others : List (List OutMsg)}
    (ho : List.Forall₂ (Delivers cB.state) foreign others) :
    telegrams (Client.run cB esB).decoded = telegrams cB.decoded ++ (merge order ls others).flatten := by
  obtain ⟨fs, f1, f2⟩ := received_frames hm
  rw [calm_requests h hcA htA haA hgA (loggables hd hm) f1, hw, List.nil_append] at hc
  obtain ⟨got, g1, g2, g3⟩ := frames_delivered hmB hcB haB hgB f2 (List.Sublist.refl _) hc hn hB ho
  rw [g1.eq_of_length (g2.trans f2.length_eq)] at g3
  exact g3

/-- C94 is false, for any two requests: if the acknowledgement of the first one is lost, the second one is not sent on,
although client and server are at rest again, and whatever the second client does it has only the telegrams of the first
one. -/
theorem c94_refuted {n : Net} (h : n.Idle) (hw : n.gateway.accepted = []) (hcA : n.client.connected = true)
    (htA : n.client.transport = true) {aA aB : AssocTable} {gA gB : GroupObjectTable}
    (haA : n.client.state.assoc = some aA) (hgA : n.client.state.got = some gA) {m m' : InMsg}
    (hd : Loggable m) (hd' : Loggable m') {l l' : List OutMsg} (hm : Received aA aB gA gB m l)
    (hm' : Received aA aB gA gB m' l') :
    let es := [.client (.write m), .upArrives, .downLost 0, .client (.write m'), .upArrives, .downArrives]
    (n.run es).Idle ∧ (n.run es).gateway.accepted.length = 1 ∧
    ∀ {came foreign : List Msg}, List.Forall₂ Comes (n.run es).gateway.accepted came →
    ∀ {cB : Client}, cB.state.medium = .knxnetIp → cB.state.chan ≠ none → cB.state.assoc = some aB →
    cB.state.got = some gB → ∀ {next : Byte}, cB.state.seqRemote = next.toNat → ∀ {order : List Bool}
    {esB : List Client.Event}, Session next esB (merge order came foreign) → ∀ {others : List (List OutMsg)},
    List.Forall₂ (Delivers cB.state) foreign others →
    telegrams (Client.run cB esB).decoded = telegrams cB.decoded ++ (merge order [l] others).flatten := by
  obtain ⟨x, x1, x2⟩ := received_frame hm
  obtain ⟨x', y1, -⟩ := received_frame hm'
  have e1 := x1 n.client.state haA hgA _ (by unfold envelope; rw [h.medium, h.chan]; rfl)
  have s1 : Sends n.client m x := ⟨hcA, htA, loggable hd hm, _, _, e1⟩
  obtain ⟨w1, w2, w3⟩ := sends_step h.medium h.chan s1
  have ha := write_alike m n.client
  have hwir := step_wiring n.client (.write m)
  simp only [State.wiring, Prod.mk.injEq] at hwir
  have e2 := y1 (Client.step n.client (.write m)).state (hwir.2.1.trans haA) (hwir.2.2.trans hgA) _
    (by unfold envelope; rw [ha.medium.trans h.medium, ha.chan.trans h.chan]; rfl)
  obtain ⟨r1, r2, -⟩ := c63_refuted h s1 (m' := m') (x' := x') ⟨w2, w3, loggable hd' hm', _, _, e2⟩
  intro es
  refine ⟨r1, by rw [r2, hw]; rfl, ?_⟩
  intro came foreign hc cB hmB hcB haB hgB next hn order esB hB others ho
  rw [r2, hw, List.nil_append] at hc
  obtain ⟨got, g1, g2, g3⟩ := frames_delivered hmB hcB haB hgB (.cons x2 .nil) (List.Sublist.refl _) hc hn hB ho
  rw [g1.eq_of_length g2] at g3
  exact g3

/-- C95: the group requests that a tunnelling client writes arrive at a USB client of another installation each at most
once and in the order written, as exactly what they are there, between whatever else comes and can be read. -/
theorem c95_to_usb {n : Net} (h : n.Idle) (hw : n.gateway.accepted = []) {aA aB : AssocTable} {gA gB : GroupObjectTable}
    (haA : n.client.state.assoc = some aA) (hgA : n.client.state.got = some gA) {es : List NetEvent} (he : ∀ e ∈ es, Apart e)
    {ls : List (List OutMsg)} (hm : List.Forall₂ (Received aA aB gA gB) (writesOf es) ls)
    (hshow : ∀ l ∈ ls, Shown (.list l))
    {sent came foreign : List Msg} (hs : sent.Sublist (n.run es).gateway.accepted) (hc : List.Forall₂ ComesAsReport sent came)
    (order : List Bool)
    -- the second installation
    {cB : UsbClient} (hmB : cB.state.medium = .usbHid) (haB : cB.state.assoc = some aB) (hgB : cB.state.got = some gB)
    (zx : Option Byte) {pB : List Byte} (hpB : pB.length = Daemon.packetLen) {eB eB' : List Daemon.Event}
    (hpossB : Daemon.PossibleAll zx (Daemon.init pB) (eB ++ eB')) (hrep : reportsOf eB' = merge order came foreign)
    {fd : Nat} (hfd : fd ∈ inTable (Daemon.run zx (Daemon.init pB) eB))
    (hcl : ∀ st, .input fd none st ∉ eB' ∧ .input fd (some []) st ∉ eB') {new : List (Nat × List Char)}
    (hnew : (Daemon.run zx (Daemon.init pB) (eB ++ eB')).sent = (Daemon.run zx (Daemon.init pB) eB).sent ++ new)
    (hr : cB.reading = true) (hb : cB.buffer = []) {esB : List UsbClient.Event} (heB : .closed ∉ esB ∧ .finish ∉ esB)
    (ht : textOf esB = (new.filter fun p => p.1 = fd).flatMap (·.2)) {others : List Res}
    (ho : List.Forall₂ (Readable cB.state) foreign others) :
    ∃ got : List (List OutMsg), got.Sublist ls ∧ got.length = sent.length ∧ (UsbClient.run cB esB).reading = true ∧
      (UsbClient.run cB esB).seen = cB.seen ++ merge order (got.map .list) others := by
  obtain ⟨fs, f1, f2⟩ := received_frames hm
  obtain ⟨got, g1, g2⟩ := sublist_related (hs.trans (accepted_frames h hw haA hgA he f1)) f2
  refine ⟨got, g1, g2.length_eq.symm, ?_⟩
  have hlen : ∀ r ∈ came, r.length ≤ Daemon.packetLen := fun r hr =>
    possible_report (possible_suffix hpossB) (by rw [hrep]; exact mem_merge order hr)
  have hcar : List.Forall₂ (Readable cB.state) came (got.map .list) := by
    rw [List.forall₂_map_right_iff]
    have hshow' : ∀ l ∈ got, Shown (.list l) := fun l hl => hshow l (g1.subset hl)
    clear hrep hs g1
    induction g2 generalizing came with
    | nil => cases hc; exact .nil
    | @cons x l xs ls' k1 _ ih =>
      cases hc with
      | cons j1 j2 =>
        obtain ⟨x', pad, j3, rfl⟩ := j1
        refine .cons ⟨?_, hshow' l (by simp)⟩ (ih j2 (fun r hr => hlen r (by simp [hr])) fun l hl => hshow' l (by simp [hl]))
        have h1 := hlen _ List.mem_cons_self
        rw [List.length_append, usbReport_length] at h1
        have hp : Daemon.packetLen = 56 := rfl
        have := k1.2 x' j3 cB.state haB hgB _ [] (.usb pad hmB (by omega))
        simpa using this
  obtain ⟨new', hn1, hn2⟩ := c65_daemon zx hpB hpossB hfd hcl
  rw [hnew] at hn1
  obtain rfl := List.append_cancel_left hn1
  rw [hrep] at hn2
  exact c65_partial hmB hr hb heB (t := textOf esB) (rest := []) (by simp) (by rw [ht]; exact hn2) (by simp)
    (forall₂_merge order hcar ho)

/-- C95: the group requests that a USB client writes, whose daemon reads line by line, arrive at a tunnelling client of
another installation each once and in the order written, as exactly what they are there, between whatever else comes.
Everything may still be on its way. -/
theorem c95_from_usb {cA : UsbClient} (hA : cA.state.medium = .usbHid) {aA aB : AssocTable} {gA gB : GroupObjectTable}
    (haA : cA.state.assoc = some aA) (hgA : cA.state.got = some gA) (hw : cA.writing = true) (hw0 : cA.written = [])
    {esA : List UsbClient.Event} (hfA : .finish ∉ esA) (hd : ∀ m ∈ messagesOf esA, Loggable m) {ls : List (List OutMsg)}
    (hm : List.Forall₂ (Received aA aB gA gB) (messagesOf esA) ls)
    -- the daemon of the first installation
    (zx : Option Byte) {pA : List Byte} (hpA : pA.length = Daemon.packetLen) {eA : List Daemon.Event}
    (hpossA : Daemon.PossibleAll zx (Daemon.init pA) eA) (hin : inputsOf eA <+: (UsbClient.run cA esA).written)
    -- the bus
    {sent came foreign : List Msg} (hsent : sent <+: (Daemon.run zx (Daemon.init pA) eA).device)
    (hc : List.Forall₂ LeavesAsFrame sent came) {order : List Bool}
    -- the gateway of the second installation, and its client
    {cB : Client} (hmB : cB.state.medium = .knxnetIp) (hcB : cB.state.chan ≠ none) (haB : cB.state.assoc = some aB)
    (hgB : cB.state.got = some gB) {next : Byte} (hn : cB.state.seqRemote = next.toNat)
    {esB : List Client.Event} (hB : Session next esB (merge order came foreign)) {others : List (List OutMsg)}
    (ho : List.Forall₂ (Delivers cB.state) foreign others) :
    telegrams (Client.run cB esB).decoded =
      telegrams cB.decoded ++ (merge order (ls.take came.length) others).flatten := by
  obtain ⟨xs, hx1, hx2⟩ := received_frames hm
  have hwr : List.Forall₂ (fun m x => Writable cA.state m (msgRepr (usbReport x) ++ ['\n'])) (messagesOf esA) xs := by
    have hfm := loggables hd hm
    generalize messagesOf esA = ms at hx1 hfm
    clear hx2 hm hin
    induction hx1 with
    | nil => exact .nil
    | @cons m x ms xs k1 _ ih =>
      refine .cons ⟨usbReport x, msgRepr (usbReport x), k1 cA.state haA hgA _ (by unfold envelope; rw [hA]),
        hexText_msgRepr _, ?_, rfl, (), hfm m List.mem_cons_self⟩ (ih fun m hm => hfm m (List.mem_cons_of_mem _ hm))
      intro c hc
      have key : ∀ n, n < 16 → (hexDigit n).isLower = false := by decide
      simp only [msgRepr, List.mem_flatMap, List.mem_cons, List.not_mem_nil, or_false] at hc
      obtain ⟨b, -, rfl | rfl⟩ := hc
      · exact key _ (by have := b.isLt; omega)
      · exact key _ (by omega)
  have happ : ∀ m ∈ messagesOf esA, IsApplication m := by
    intro m h
    obtain ⟨l, -, hl⟩ := forall₂_left hm h
    cases m <;> first | exact trivial | exact hl.elim
  have hlines : (UsbClient.run cA esA).written = xs.map fun x => msgRepr (usbReport x) ++ ['\n'] := by
    have := (c66_partial hA hw hfA (lines := xs.map fun x => msgRepr (usbReport x) ++ ['\n']) happ
      (List.forall₂_map_right_iff.2 hwr)).2.1
    rw [this, hw0, List.nil_append]
  rw [hlines] at hin
  obtain ⟨later, hin⟩ := hin
  obtain ⟨xs1, xs2, rfl, hxs1, -⟩ := List.map_eq_append_iff.1 hin.symm
  have hlin : List.Forall₂ IsLine (xs1.map usbReport) (inputsOf eA) := by
    rw [← hxs1, List.forall₂_map_right_iff, List.forall₂_map_left_iff, List.forall₂_same]
    exact fun f _ => ⟨_, hexText_msgRepr _, rfl⟩
  have hshort : ∀ f ∈ xs1.map usbReport, f.length ≤ Daemon.packetLen := by
    intro f hf
    obtain ⟨x, hx, rfl⟩ := List.mem_map.1 hf
    obtain ⟨l, -, hl⟩ := forall₂_left hx2 (List.mem_append_left _ hx)
    have := hl.1.2
    rw [usbReport_length]
    show _ ≤ 56
    omega
  obtain ⟨ds, hd1, hd2⟩ := device_lines zx hpA hpossA hlin hshort
  change _ = [] ++ ds at hd1
  rw [hd1, List.nil_append] at hsent
  obtain ⟨ds2, rfl⟩ := hsent
  rw [List.forall₂_map_left_iff] at hd2
  have hcar : List.Forall₂ (Delivers cB.state) came (ls.take came.length) := by
    refine chain hd2 hc hx2 (T := fun _ => True) (fun _ _ => trivial) ?_
    rintro x d x' l ⟨⟨pad, h1⟩, h2⟩ ⟨y, pad', rfl, h3⟩ h4 - s hms has hgs f pre hcar
    obtain rfl := usbReport_unique h1 (h1 ▸ h2)
    exact h4.2 x' h3 s (has.trans haB) (hgs.trans hgB) f pre hcar
  exact (c46_partial hmB hcB hn hB (forall₂_merge order hcar ho)).1

/-! ## Examples -/

/-- The tables of the two installations. -/
def exAA : AssocTable := (AssocTable.init exAt []).2.afterAll exOps

def exAB : AssocTable := (AssocTable.init exAt []).2.afterAll exOpsB

/-- What device B decodes of a read, and of a write, of the object 7 of device A. -/
def exRead : List OutMsg := [.group .read .ind ⟨42, none⟩ ⟨.float16, 0⟩, .group .read .ind ⟨41, none⟩ ⟨.brightness, 0⟩]

def exWritten : List OutMsg :=
  [.group .write .ind ⟨42, none⟩ ⟨.float16, 0x0C3D⟩, .group .write .ind ⟨41, none⟩ ⟨.brightness, 0x3D⟩]

theorem exReceived_read : Received exAA exAB (exGops.foldl GroupObjectTable.after [])
    [(⟨42, none⟩, .float16), (⟨41, none⟩, .brightness)] (.groupRead ⟨7, none⟩) exRead :=
  ⟨0x0E89, exSends, .inr ⟨[41, 42], exLeads, by decide +kernel⟩⟩

theorem exReceived_write : Received exAA exAB (exGops.foldl GroupObjectTable.after [])
    [(⟨42, none⟩, .float16), (⟨41, none⟩, .brightness)] (.groupWriteReq ⟨7, none⟩ ⟨.float16, 0x0C3D⟩) exWritten :=
  ⟨.float16, 0x0E89, by decide +kernel, exSends, .inr ⟨[41, 42], exLeads, by decide +kernel, by decide⟩⟩

theorem exEvents_apart : ∀ e ∈ exEvents, Apart e := by
  intro e he
  simp only [exEvents, List.mem_cons, List.not_mem_nil, or_false] at he
  rcases he with rfl | rfl | rfl | rfl | rfl | rfl | rfl | rfl | rfl | rfl | rfl <;> trivial

/-- Device B on KNXnet/IP, its gateway about to send the counter 255. -/
def exClientB : Client := { Client.init 0xC0A80002 3671 exStateB with transport := true, connected := true }

/-- The frames of a read and of a write as they come to device B. -/
def exCame : List Msg := [arrival [] 0xBC 0x50 0x1105 (cemi 0x11 [] (readTelegram 0x0E89)),
  arrival [3, 2, 1, 0] 0xBC 0x60 0x1105 (cemi 0x11 [] (writeTelegram 0x0E89 .float16 0x0C3D))]

/-- The frame of an address that device B does not have. -/
def exElse : Msg := cemi 0x29 [] { readTelegram 0x0123 with source := 0x1106 }

theorem exElse_delivers : Delivers exClientB.state exElse [] := by
  intro s' hm ha hg f pre hc
  rw [List.append_nil]
  exact c30_foreign (a := exAB) (t := { readTelegram 0x0123 with source := 0x1106 }) (k := .ind) (info := []) ha
    (readTelegram_facts 0x0123).1 (.inl (readTelegram_facts 0x0123).2.1) (by decide +kernel) (by decide) hc

/-- What device B gets from its gateway: the three frames, the second one twice. -/
def exSessionB : List Client.Event :=
  [.datagram (tunnelRequest 0 255 (exCame[0])), .datagram (tunnelRequest 0 0 exElse), .datagram (tunnelRequest 0 0 exElse),
    .datagram (tunnelRequest 0 1 (exCame[1]))]

theorem exSessionB_session : Session 255 exSessionB (merge [true, false, true] exCame [exElse]) := by
  refine .new 0 _ 4 0 0 _ (.new 0 _ 4 0 0 _ (.again 0 _ 4 0 0 0 _ (by decide) (.new 0 _ 4 0 0 _ (.nil _))))

/-- Of three requests, the second is lost on its way to the gateway. -/
example : ∃ got, got.Sublist [exRead, exRead, exWritten] ∧ got.length = 2 ∧
    telegrams (Client.run exClientB exSessionB).decoded = (merge [true, false, true] got [[]]).flatten :=
  c94_once exNet_idle rfl (aA := exAA) (aB := exAB) rfl rfl exEvents_apart
    (.cons exReceived_read (.cons exReceived_read (.cons exReceived_write .nil)))
    (sent := [cemi 0x11 [] (readTelegram 0x0E89), cemi 0x11 [] (writeTelegram 0x0E89 .float16 0x0C3D)]) (came := exCame)
    (foreign := [exElse]) (by decide +kernel)
    (.cons ⟨[], 0xBC, 0x50, 0x1105, by decide, rfl⟩ (.cons ⟨[3, 2, 1, 0], 0xBC, 0x60, 0x1105, by decide, rfl⟩ .nil))
    (cB := exClientB) rfl (by decide) rfl rfl (next := 255) rfl exSessionB_session (.cons exElse_delivers .nil)

/-- Two requests, each written after the acknowledgement of the one before. -/
example : telegrams (Client.run exClientB exSessionB).decoded = exRead ++ exWritten :=
  (c94_partial exNet_idle rfl rfl rfl (aA := exAA) (aB := exAB) rfl rfl
    (ms := [.groupRead ⟨7, none⟩, .groupWriteReq ⟨7, none⟩ ⟨.float16, 0x0C3D⟩])
    (by
      intro m hm
      simp only [List.mem_cons, List.not_mem_nil, or_false] at hm
      rcases hm with rfl | rfl
      · trivial
      · show Displayable _
        decide)
    (.cons exReceived_read (.cons exReceived_write .nil)) (came := exCame) (foreign := [exElse])
    (by
      rw [show (exNet.run ([.groupRead ⟨7, none⟩, .groupWriteReq ⟨7, none⟩ ⟨.float16, 0x0C3D⟩].flatMap calmly)).gateway.accepted =
        [cemi 0x11 [] (readTelegram 0x0E89), cemi 0x11 [] (writeTelegram 0x0E89 .float16 0x0C3D)] by decide +kernel]
      exact .cons ⟨[], 0xBC, 0x50, 0x1105, by decide, rfl⟩ (.cons ⟨[3, 2, 1, 0], 0xBC, 0x60, 0x1105, by decide, rfl⟩ .nil))
    (cB := exClientB) rfl (by decide) rfl rfl (next := 255) rfl exSessionB_session (.cons exElse_delivers .nil)).trans
    (by decide)

/-- The same two requests; the acknowledgement of the first one is lost, and so the second one. -/
example : telegrams (Client.run exClientB (exSessionB.take 2)).decoded = exRead :=
  ((c94_refuted exNet_idle rfl rfl rfl (aA := exAA) (aB := exAB) rfl rfl (m := .groupRead ⟨7, none⟩)
    (m' := .groupWriteReq ⟨7, none⟩ ⟨.float16, 0x0C3D⟩) trivial (show Displayable ⟨.float16, 0x0C3D⟩ by decide) exReceived_read
    exReceived_write).2.2 (came := [exCame[0]]) (foreign := [exElse])
    (by
      rw [show (exNet.run [.client (.write (.groupRead ⟨7, none⟩)), .upArrives, .downLost 0,
        .client (.write (.groupWriteReq ⟨7, none⟩ ⟨.float16, 0x0C3D⟩)), .upArrives, .downArrives]).gateway.accepted =
        [cemi 0x11 [] (readTelegram 0x0E89)] by decide +kernel]
      exact .cons ⟨[], 0xBC, 0x50, 0x1105, by decide, rfl⟩ .nil)
    (cB := exClientB) rfl (by decide) rfl rfl (next := 255) rfl (order := [true, false])
    (.new 0 _ 4 0 0 _ (.new 0 _ 4 0 0 _ (.nil _))) (.cons exElse_delivers .nil)).trans (by decide)

/-- The reports of a read and a write at device B on USB. -/
def exCameReports : List Msg := exCame.map fun m => usbReport m ++ [0, 0]

def exDaemonB2 : List Daemon.Event := (merge [true, false, true] exCameReports exForeign).map .report

def exTextB : List Char := exDaemonB2.flatMap fun
  | .report d => hexLower d ++ ['\n']
  | _ => []

example : ∃ got : List (List OutMsg), got.Sublist [exRead, exRead, exWritten] ∧ got.length = 2 ∧
    (UsbClient.run { state := exStateB' } [.received exTextB]).reading = true ∧
    (UsbClient.run { state := exStateB' } [.received exTextB]).seen = merge [true, false, true] (got.map .list) [.list []] :=
  c95_to_usb exNet_idle rfl (aA := exAA) (aB := exAB) rfl rfl exEvents_apart
    (.cons exReceived_read (.cons exReceived_read (.cons exReceived_write .nil)))
    (by
      intro l hl k a x d h
      simp only [List.mem_cons, List.not_mem_nil, or_false] at hl
      rcases hl with rfl | rfl | rfl <;>
        (simp only [Spec.messages, exRead, exWritten, List.mem_cons, OutMsg.group.injEq, List.not_mem_nil, or_false] at h
         obtain ⟨-, -, -, rfl⟩ | ⟨-, -, -, rfl⟩ := h <;> decide))
    (sent := [cemi 0x11 [] (readTelegram 0x0E89), cemi 0x11 [] (writeTelegram 0x0E89 .float16 0x0C3D)]) (came := exCameReports)
    (foreign := exForeign) (by decide +kernel)
    (.cons ⟨_, [0, 0], ⟨[], 0xBC, 0x50, 0x1105, by decide, rfl⟩, rfl⟩
      (.cons ⟨_, [0, 0], ⟨[3, 2, 1, 0], 0xBC, 0x60, 0x1105, by decide, rfl⟩, rfl⟩ .nil)) [true, false, true]
    (cB := { state := exStateB' }) rfl rfl rfl none (pB := List.replicate 56 7) (by decide)
    (eB := [.accept 9]) (eB' := exDaemonB2) (by decide +kernel) (by decide +kernel) (fd := 9) (by decide +kernel)
    (by simp [exDaemonB2])
    (new := (Daemon.run none (Daemon.init (List.replicate 56 7)) ([.accept 9] ++ exDaemonB2)).sent) (by decide +kernel) rfl rfl
    (esB := [.received exTextB]) ⟨by simp, by simp⟩ (by decide +kernel) (others := [.list []])
    (.cons ⟨by decide +kernel, fun k a x d h => by simp [Spec.messages] at h⟩ .nil)

/-- The write and the read of `exWrites`, from device A on USB to device B on KNXnet/IP. -/
def exCame2 : List Msg := exFrames.map fun m => arrival [] 0xBC 0x50 0x1105 m

def exSessionB2 : List Client.Event :=
  [.datagram (tunnelRequest 0 255 (exCame2[0])), .datagram (tunnelRequest 0 0 exElse), .datagram (tunnelRequest 0 1 (exCame2[1]))]

example : telegrams (Client.run exClientB exSessionB2).decoded = exWritten ++ exRead :=
  (c95_from_usb (cA := exUsb) rfl (aA := exAA) (aB := exAB) rfl rfl rfl rfl (esA := exWrites) (by decide)
    (by
      intro m hm
      change m ∈ [.groupWriteReq ⟨7, none⟩ ⟨.float16, 0x0C3D⟩, .groupRead ⟨7, none⟩] at hm
      simp only [List.mem_cons, List.not_mem_nil, or_false] at hm
      rcases hm with rfl | rfl
      · show Displayable _
        decide
      · trivial)
    (.cons exReceived_write (.cons exReceived_read .nil)) none (pA := List.replicate 56 0) (by decide) (eA := exDaemonA)
    (by decide +kernel) (by decide +kernel) (sent := exSent) (came := exCame2) (foreign := [exElse]) (by decide +kernel)
    (.cons ⟨_, List.replicate 32 0, rfl, [], 0xBC, 0x50, 0x1105, by decide, rfl⟩
      (.cons ⟨_, [0x0C, 0x3D] ++ List.replicate 32 0, rfl, [], 0xBC, 0x50, 0x1105, by decide, rfl⟩ .nil))
    (order := [true, false, true]) (cB := exClientB) rfl (by decide) rfl rfl (next := 255) rfl
    (.new 0 _ 4 0 0 _ (.new 0 _ 4 0 0 _ (.new 0 _ 4 0 0 _ (.nil _)))) (.cons exElse_delivers .nil)).trans (by decide)

end Knx
