import Verif.Props.Tunnels
import Verif.Props.Hundredths
import Verif.Spec.Numbers

/-! # C128: numbers on their way from one installation to another -/

namespace Knx
open Spec

theorem sameFloat_facts {c c' : DptClass} (h : SameFloat c c') : inApci c = false ∧ octets c = octets c' ∧ c.kind = c'.kind := by
  rcases h with ⟨h, h'⟩ | ⟨h, h'⟩ <;> revert h h' <;> cases c <;> simp [isFloat16, isFloat32] <;> cases c' <;>
    simp [isFloat16, isFloat32, inApci, octets, DptClass.kind]

/-- The messages made of a number. -/
theorem fan_tells {d : Dpt} {c : DptClass} (hw : d.Wf) (hc : SameFloat d.cls c) {f : PyFloat} (hf : d.decode = .ok f)
    (gB : GroupObjectTable) (vs : List Int) :
    List.Forall₂ (Tells c f) (listening gB vs) (fanOut .write .ind gB vs (writtenValue c d.raw)) := by
  unfold fanOut listening
  rw [List.forall₂_map_right_iff, List.forall₂_same]
  intro p _
  refine ⟨_, rfl, rfl, fun hp => ?_⟩
  have h1 := sameFloat_facts hc
  have h2 := sameFloat_facts hp
  have hr : writtenValue c d.raw % 256 ^ octets p.2 = d.raw := by
    unfold writtenValue
    rw [h2.1, if_neg (by simp), ← h2.2.1, ← h1.2.1, Nat.mod_mod]
    exact Nat.mod_eq_of_lt hw
  have hk : d.cls.kind = p.2.kind := h1.2.2.trans h2.2.2
  rw [← hf]
  unfold Dpt.decode
  simp only [hr, hk]

/-- The first message can be displayed, as all can. -/
theorem fan_displayable {gB : GroupObjectTable} {vs : List Int} (hg : ∀ p ∈ listening gB vs, p.2 ≠ .setupClima ∧ p.2 ≠ .infoClimaReport)
    (n : Nat) : FirstDisplayable (fanOut .write .ind gB vs n) := by
  unfold fanOut
  unfold listening at hg
  cases hl : gB.filter fun p => p.1.value ∈ vs with
  | nil => trivial
  | cons p l =>
    have := hg p (by rw [hl]; exact List.mem_cons_self)
    show Displayable _
    rintro ⟨h | h, -⟩
    · exact this.1 h
    · exact this.2 h

/-- C128: a number written by the client of one tunnel, when nothing is under way, is the number that the client of another
tunnel reads, whatever else it receives: every object that listens is told, those of the float type that number. -/
theorem c128_tunnel {n : Net} (h : n.Idle) (hw : n.gateway.accepted = []) (hcA : n.client.connected = true)
    (htA : n.client.transport = true) {aA aB : AssocTable} {gA gB : GroupObjectTable}
    (haA : n.client.state.assoc = some aA) (hgA : n.client.state.got = some gA)
    -- the number, in a datapoint of a float type, for an object of such a type
    {asap : Asap} {d : Dpt} (hd : d.Wf) {f : PyFloat} (hf : d.decode = .ok f) {c : DptClass} (ht : typeIn gA asap.value = some c)
    (hc : SameFloat d.cls c) {x : BitVec 16} (hx : SendsTo aA asap x) {vs : List Int} (hv : LeadsTo aB x vs)
    (hg : ∀ p ∈ listening gB vs, p.2 ≠ .setupClima ∧ p.2 ≠ .infoClimaReport)
    -- the other installation
    {came foreign : List Msg} (hcame : List.Forall₂ Comes (n.run (calmly (.groupWriteReq asap d))).gateway.accepted came)
    {cB : Client} (hmB : cB.state.medium = .knxnetIp) (hcB : cB.state.chan ≠ none) (haB : cB.state.assoc = some aB)
    (hgB : cB.state.got = some gB) {next : Byte} (hn : cB.state.seqRemote = next.toNat) {order : List Bool}
    {esB : List Client.Event} (hB : Session next esB (merge order came foreign)) {others : List (List OutMsg)}
    (ho : List.Forall₂ (Delivers cB.state) foreign others) :
    ∃ l, List.Forall₂ (Tells c f) (listening gB vs) l ∧
      telegrams (Client.run cB esB).decoded = telegrams cB.decoded ++ (merge order [l] others).flatten := by
  refine ⟨_, fan_tells hd hc hf gB vs, ?_⟩
  have hdis : Displayable d := by
    rintro ⟨hk | hk, -⟩ <;> rw [hk] at hc <;> rcases hc with ⟨hc, -⟩ | ⟨hc, -⟩ <;> cases hc
  exact c94_partial h hw hcA htA haA hgA (ms := [.groupWriteReq asap d])
    (fun m hm => by rw [List.mem_singleton.1 hm]; exact hdis)
    (.cons ⟨c, x, ht, hx, .inr ⟨vs, hv, rfl, fan_displayable hg _⟩⟩ .nil)
    (by rw [List.flatMap_cons, List.flatMap_nil, List.append_nil]; exact hcame) hmB hcB haB hgB hn hB ho

/-- All messages can be displayed. -/
theorem fan_shown {gB : GroupObjectTable} {vs : List Int} (hg : ∀ p ∈ listening gB vs, p.2 ≠ .setupClima ∧ p.2 ≠ .infoClimaReport)
    (n : Nat) : Shown (.list (fanOut .write .ind gB vs n)) := by
  intro k a x d h
  obtain ⟨p, hp, he⟩ := List.mem_map.1 h
  have := hg p hp
  cases he
  rintro ⟨h | h, -⟩
  · exact this.1 h
  · exact this.2 h

/-- C128: the same from one USB client to another, whose daemons read and pass on line by line. -/
theorem c128_usb {cA cB : UsbClient} (hA : cA.state.medium = .usbHid) (hB : cB.state.medium = .usbHid)
    {aA aB : AssocTable} {gA gB : GroupObjectTable} (haA : cA.state.assoc = some aA) (hgA : cA.state.got = some gA)
    (haB : cB.state.assoc = some aB) (hgB : cB.state.got = some gB)
    -- the number, in a datapoint of a float type, for an object of such a type
    {asap : Asap} {d : Dpt} (hd : d.Wf) {f : PyFloat} (hf : d.decode = .ok f) {c : DptClass} (ht : typeIn gA asap.value = some c)
    (hc : SameFloat d.cls c) {x : BitVec 16} (hx : SendsTo aA asap x) {vs : List Int} (hv : LeadsTo aB x vs)
    (hg : ∀ p ∈ listening gB vs, p.2 ≠ .setupClima ∧ p.2 ≠ .infoClimaReport)
    (hw : cA.writing = true) (hw0 : cA.written = []) {esA : List UsbClient.Event} (hfA : .finish ∉ esA)
    (hm : messagesOf esA = [.groupWriteReq asap d])
    -- the way
    (zx : Option Byte) {pA : List Byte} (hpA : pA.length = Daemon.packetLen) {eA : List Daemon.Event}
    (hpossA : Daemon.PossibleAll zx (Daemon.init pA) eA) (hin : inputsOf eA <+: (UsbClient.run cA esA).written)
    {sent foreign : List Msg} {r : Msg} (hsent : sent <+: (Daemon.run zx (Daemon.init pA) eA).device)
    (hpass : List.Forall₂ Passes sent [r]) (order : List Bool)
    {pB : List Byte} (hpB : pB.length = Daemon.packetLen) {eB eB' : List Daemon.Event}
    (hpossB : Daemon.PossibleAll zx (Daemon.init pB) (eB ++ eB')) (hrep : reportsOf eB' = merge order [r] foreign)
    -- the other client
    {fd : Nat} (hfd : fd ∈ inTable (Daemon.run zx (Daemon.init pB) eB))
    (hcl : ∀ st, .input fd none st ∉ eB' ∧ .input fd (some []) st ∉ eB') {new : List (Nat × List Char)}
    (hnew : (Daemon.run zx (Daemon.init pB) (eB ++ eB')).sent = (Daemon.run zx (Daemon.init pB) eB).sent ++ new)
    (hr : cB.reading = true) (hb : cB.buffer = []) {esB : List UsbClient.Event} (heB : .closed ∉ esB ∧ .finish ∉ esB)
    (htx : textOf esB = (new.filter fun p => p.1 = fd).flatMap (·.2)) {fouts : List Res}
    (hfor : List.Forall₂ (Readable cB.state) foreign fouts) :
    ∃ l, List.Forall₂ (Tells c f) (listening gB vs) l ∧
      (UsbClient.run cB esB).seen = cB.seen ++ merge order [.list l] fouts := by
  refine ⟨_, fan_tells hd hc hf gB vs, ?_⟩
  have hdis : Displayable d := by
    rintro ⟨hk | hk, -⟩ <;> rw [hk] at hc <;> rcases hc with ⟨hc, -⟩ | ⟨hc, -⟩ <;> cases hc
  exact (c72_partial hA hB haA hgA haB hgB hw hw0 hfA
    (outs := [.list (fanOut .write .ind gB vs (writtenValue c d.raw))])
    (by rw [hm]; exact .cons ⟨hdis, c, x, vs, ht, hx, hv, rfl, fan_shown hg _⟩ .nil)
    zx hpA hpossA hin hsent hpass order hpB hpossB hrep hfd hcl hnew hr hb heB htx hfor).2

/-- C128: from the client of a tunnel to a USB client, of whatever the network lets through: if the telegram comes, it comes
with the number. -/
theorem c128_to_usb {n : Net} (h : n.Idle) (hw : n.gateway.accepted = []) {aA aB : AssocTable} {gA gB : GroupObjectTable}
    (haA : n.client.state.assoc = some aA) (hgA : n.client.state.got = some gA)
    {asap : Asap} {d : Dpt} (hd : d.Wf) {f : PyFloat} (hf : d.decode = .ok f) {c : DptClass} (ht : typeIn gA asap.value = some c)
    (hc : SameFloat d.cls c) {x : BitVec 16} (hx : SendsTo aA asap x) {vs : List Int} (hv : LeadsTo aB x vs)
    (hg : ∀ p ∈ listening gB vs, p.2 ≠ .setupClima ∧ p.2 ≠ .infoClimaReport)
    {es : List NetEvent} (he : ∀ e ∈ es, Apart e) (hes : writesOf es = [.groupWriteReq asap d])
    {m r : Msg} {foreign : List Msg} (hs : [m].Sublist (n.run es).gateway.accepted) (hcame : ComesAsReport m r) (order : List Bool)
    {cB : UsbClient} (hmB : cB.state.medium = .usbHid) (haB : cB.state.assoc = some aB) (hgB : cB.state.got = some gB)
    (zx : Option Byte) {pB : List Byte} (hpB : pB.length = Daemon.packetLen) {eB eB' : List Daemon.Event}
    (hpossB : Daemon.PossibleAll zx (Daemon.init pB) (eB ++ eB')) (hrep : reportsOf eB' = merge order [r] foreign)
    {fd : Nat} (hfd : fd ∈ inTable (Daemon.run zx (Daemon.init pB) eB))
    (hcl : ∀ st, .input fd none st ∉ eB' ∧ .input fd (some []) st ∉ eB') {new : List (Nat × List Char)}
    (hnew : (Daemon.run zx (Daemon.init pB) (eB ++ eB')).sent = (Daemon.run zx (Daemon.init pB) eB).sent ++ new)
    (hr : cB.reading = true) (hb : cB.buffer = []) {esB : List UsbClient.Event} (heB : .closed ∉ esB ∧ .finish ∉ esB)
    (htx : textOf esB = (new.filter fun p => p.1 = fd).flatMap (·.2)) {others : List Res}
    (ho : List.Forall₂ (Readable cB.state) foreign others) :
    ∃ l, List.Forall₂ (Tells c f) (listening gB vs) l ∧
      (UsbClient.run cB esB).seen = cB.seen ++ merge order [.list l] others := by
  refine ⟨_, fan_tells hd hc hf gB vs, ?_⟩
  obtain ⟨got, g1, g2, -, g4⟩ := c95_to_usb h hw haA hgA he
    (ls := [fanOut .write .ind gB vs (writtenValue c d.raw)])
    (by rw [hes]; exact .cons ⟨c, x, ht, hx, .inr ⟨vs, hv, rfl, fan_displayable hg _⟩⟩ .nil)
    (fun l hl => by rw [List.mem_singleton.1 hl]; exact fan_shown hg _) hs (.cons hcame .nil) order hmB haB hgB zx hpB hpossB hrep hfd hcl
    hnew hr hb heB htx ho
  obtain rfl := g1.eq_of_length g2
  exact g4

/-- C128: from a USB client to the client of a tunnel. -/
theorem c128_from_usb {cA : UsbClient} (hA : cA.state.medium = .usbHid) {aA aB : AssocTable} {gA gB : GroupObjectTable}
    (haA : cA.state.assoc = some aA) (hgA : cA.state.got = some gA) (hw : cA.writing = true) (hw0 : cA.written = [])
    {asap : Asap} {d : Dpt} (hd : d.Wf) {f : PyFloat} (hf : d.decode = .ok f) {c : DptClass} (ht : typeIn gA asap.value = some c)
    (hc : SameFloat d.cls c) {x : BitVec 16} (hx : SendsTo aA asap x) {vs : List Int} (hv : LeadsTo aB x vs)
    (hg : ∀ p ∈ listening gB vs, p.2 ≠ .setupClima ∧ p.2 ≠ .infoClimaReport)
    {esA : List UsbClient.Event} (hfA : .finish ∉ esA) (hm : messagesOf esA = [.groupWriteReq asap d])
    (zx : Option Byte) {pA : List Byte} (hpA : pA.length = Daemon.packetLen) {eA : List Daemon.Event}
    (hpossA : Daemon.PossibleAll zx (Daemon.init pA) eA) (hin : inputsOf eA <+: (UsbClient.run cA esA).written)
    {r r' : Msg} {foreign : List Msg} (hsent : [r] <+: (Daemon.run zx (Daemon.init pA) eA).device)
    (hl : LeavesAsFrame r r') {order : List Bool}
    {cB : Client} (hmB : cB.state.medium = .knxnetIp) (hcB : cB.state.chan ≠ none) (haB : cB.state.assoc = some aB)
    (hgB : cB.state.got = some gB) {next : Byte} (hn : cB.state.seqRemote = next.toNat)
    {esB : List Client.Event} (hB : Session next esB (merge order [r'] foreign)) {others : List (List OutMsg)}
    (ho : List.Forall₂ (Delivers cB.state) foreign others) :
    ∃ l, List.Forall₂ (Tells c f) (listening gB vs) l ∧
      telegrams (Client.run cB esB).decoded = telegrams cB.decoded ++ (merge order [l] others).flatten := by
  refine ⟨_, fan_tells hd hc hf gB vs, ?_⟩
  have hdis : Displayable d := by
    rintro ⟨hk | hk, -⟩ <;> rw [hk] at hc <;> rcases hc with ⟨hc, -⟩ | ⟨hc, -⟩ <;> cases hc
  exact c95_from_usb hA haA hgA hw hw0 hfA (fun m hm' => by rw [hm] at hm'; rw [List.mem_singleton.1 hm']; exact hdis)
    (ls := [fanOut .write .ind gB vs (writtenValue c d.raw)])
    (by rw [hm]; exact .cons ⟨c, x, ht, hx, .inr ⟨vs, hv, rfl, fan_displayable hg _⟩⟩ .nil)
    zx hpA hpossA hin hsent (.cons hl .nil) hmB hcB haB hgB hn hB ho

/-- C128: such a datapoint is made of every int that is `M * 2^E` hundredths. -/
theorem c128_int (d : Dpt) (h : Spec.isFloat16 d.cls = true) (hw : d.Wf) {n M : Int} {E : Nat} (h1 : -2048 ≤ M) (h2 : M < 2048)
    (hE : E ≤ 15) (hn : 100 * n = M * 2 ^ E) :
    ∃ r, Dpt.encode (.int n) d = (.ok (), r) ∧ r.Wf ∧ SameFloat r.cls d.cls ∧ r.decode = .ok (.fin n) := by
  obtain ⟨r, r1, r2, r3⟩ := c125_int d h h1 h2 hE hn
  refine ⟨r, r1, ?_, .inl ⟨by rw [r2]; exact h, h⟩, r3⟩
  have hW : |M * 2 ^ E| ≤ 2 ^ 26 := by
    have hp2 : (2 : Int) ^ E ≤ 2 ^ 15 := pow_le_pow_right₀ (by norm_num) hE
    have hp0 : (0 : Int) < 2 ^ E := by positivity
    rw [abs_mul, abs_of_pos hp0]
    calc |M| * 2 ^ E ≤ 2048 * 2 ^ 15 := mul_le_mul (abs_le.2 ⟨h1, h2.le⟩) hp2 hp0.le (by norm_num)
      _ = 2 ^ 26 := by norm_num
  rw [← hn, abs_le] at hW
  have hb : |n| ≤ 671088 := by
    rw [abs_le]
    generalize n = k at hW ⊢
    omega
  have hbq : |(n : ℚ)| ≤ 671088 := by exact_mod_cast hb
  have hl : (671088 : ℚ) < 2 ^ 1024 - 2 ^ 970 := by decide +kernel
  have hin : InFormat 53 (-1074) (n : ℚ) := ⟨n, 0, lt_of_le_of_lt hb (by norm_num), by norm_num, by norm_num⟩
  have hnear : Nearest 53 (-1074) (n : ℚ) n := by
    refine ⟨hin, fun y _ => by rw [sub_self, abs_zero]; exact abs_nonneg _, ?_⟩
    rintro ⟨y, -, hne, he⟩
    rw [sub_self, abs_zero, abs_eq_zero, sub_eq_zero] at he
    exact absurd he hne
  rw [(c123_double d (.inl h) n).1 _ hnear (lt_of_le_of_lt hbq hl)] at r1
  obtain ⟨r', s1, s2⟩ := c21_accepts d h hw n (hbq.trans (by norm_num))
  rw [r1] at s1
  cases s1
  exact s2

example : ∃ r, Dpt.encode (.int 21) ⟨.valueTemp, 0⟩ = (.ok (), r) ∧ r.Wf ∧ SameFloat r.cls .valueTemp ∧ r.decode = .ok (.fin (21 : Int)) :=
  c128_int ⟨.valueTemp, 0⟩ rfl (by unfold Dpt.Wf; decide) (M := 1050) (E := 1) (by norm_num) (by norm_num) (by norm_num) (by norm_num)

/-- What device B gets when device A writes 21.7 to its object 7: the object 42 of B, a 2-octet float, is told. -/
example : ∃ l f, decode16 0x0C3D = f ∧ List.Forall₂ (Tells .float16 f) [(⟨42, none⟩, .float16), (⟨41, none⟩, .brightness)] l ∧
    telegrams (Client.run exClientB [.datagram (tunnelRequest 0 255 (exCame[1]))]).decoded = l := by
  obtain ⟨l, h1, h2⟩ := c128_tunnel exNet_idle rfl rfl rfl (aA := exAA) (aB := exAB)
    (gB := [(⟨42, none⟩, .float16), (⟨41, none⟩, .brightness)]) rfl rfl (asap := ⟨7, none⟩)
    (d := ⟨.float16, 0x0C3D⟩) (by unfold Dpt.Wf; decide) (f := decode16 0x0C3D) rfl (c := .float16) (by decide +kernel) (by decide) exSends
    exLeads (by decide +kernel) (came := [exCame[1]]) (foreign := [])
    (by
      rw [show (exNet.run (calmly (.groupWriteReq ⟨7, none⟩ ⟨.float16, 0x0C3D⟩))).gateway.accepted =
        [cemi 0x11 [] (writeTelegram 0x0E89 .float16 0x0C3D)] by decide +kernel]
      exact .cons ⟨[3, 2, 1, 0], 0xBC, 0x60, 0x1105, by decide, rfl⟩ .nil)
    (cB := exClientB) rfl (by decide) rfl rfl (next := 255) rfl (order := [true])
    (esB := [.datagram (tunnelRequest 0 255 (exCame[1]))]) (.new 0 _ 4 0 0 _ (.nil _)) (others := []) .nil
  refine ⟨l, _, rfl, ?_, ?_⟩
  · rwa [show listening [(⟨42, none⟩, .float16), (⟨41, none⟩, .brightness)] [41, 42] =
      [((⟨42, none⟩ : Asap), DptClass.float16), (⟨41, none⟩, .brightness)] by decide] at h1
  · exact h2.trans (by simp [merge, exClientB, Client.init, telegrams])

/-- The report of a write at device B on USB, and the line its daemon makes of it. -/
def exReportB : Msg := usbReport (arrival [] 0xBC 0x50 0x1105 (cemi 0x11 [] (writeTelegram 0x0E89 .float16 0x0C3D))) ++ [0, 0]

/-- The same over USB. -/
example : ∃ l, List.Forall₂ (Tells .float16 (decode16 0x0C3D)) (listening [(⟨42, none⟩, .float16), (⟨41, none⟩, .brightness)] [41, 42]) l ∧
    (UsbClient.run { state := exStateB' } [.received (hexLower exReportB ++ ['\n'])]).seen = [.list l] := by
  obtain ⟨l, h1, h2⟩ := c128_usb (cA := exUsb) (cB := { state := exStateB' }) rfl rfl rfl rfl rfl rfl (asap := ⟨7, none⟩)
    (d := ⟨.float16, 0x0C3D⟩) (by unfold Dpt.Wf; decide) (f := decode16 0x0C3D) rfl (c := .float16) (by decide +kernel) (by decide) exSends
    exLeads (by decide +kernel) rfl rfl (esA := [.write (.groupWriteReq ⟨7, none⟩ ⟨.float16, 0x0C3D⟩)]) (by decide) rfl
    none (pA := List.replicate 56 0) (by decide) (eA := exDaemonA.take 2) (by decide +kernel) (by decide +kernel)
    (sent := exSent.take 1) (r := exReportB) (foreign := []) (by decide +kernel)
    (.cons ⟨_, List.replicate 32 0, [0, 0], [], 0xBC, 0x50, 0x1105, rfl, rfl⟩ .nil) [true] (pB := List.replicate 56 7) (by decide)
    (eB := [.accept 9]) (eB' := [.report exReportB]) (by decide +kernel) (by decide +kernel) (fd := 9) (by decide +kernel) (by simp)
    (new := (Daemon.run none (Daemon.init (List.replicate 56 7)) ([.accept 9] ++ [.report exReportB])).sent) (by decide +kernel) rfl rfl
    (esB := [.received (hexLower exReportB ++ ['\n'])]) ⟨by simp, by simp⟩ (by decide +kernel) (fouts := []) .nil
  exact ⟨l, h1, h2.trans (by simp [merge])⟩

/-- Device A on KNXnet/IP, device B on USB. -/
example : ∃ l, List.Forall₂ (Tells .float16 (decode16 0x0C3D)) (listening [(⟨42, none⟩, .float16), (⟨41, none⟩, .brightness)] [41, 42]) l ∧
    (UsbClient.run { state := exStateB' } [.received (hexLower exReportB ++ ['\n'])]).seen = [.list l] := by
  obtain ⟨l, h1, h2⟩ := c128_to_usb exNet_idle rfl (aA := exAA) (aB := exAB) rfl rfl (asap := ⟨7, none⟩)
    (d := ⟨.float16, 0x0C3D⟩) (by unfold Dpt.Wf; decide) (f := decode16 0x0C3D) rfl (c := .float16) (by decide +kernel) (by decide) exSends
    exLeads (by decide +kernel) (es := [.client (.write (.groupWriteReq ⟨7, none⟩ ⟨.float16, 0x0C3D⟩)), .upArrives])
    (by
      intro e he
      simp only [List.mem_cons, List.not_mem_nil, or_false] at he
      rcases he with rfl | rfl <;> trivial) rfl
    (m := cemi 0x11 [] (writeTelegram 0x0E89 .float16 0x0C3D)) (r := exReportB) (foreign := []) (by decide +kernel)
    ⟨_, [0, 0], ⟨[], 0xBC, 0x50, 0x1105, by decide, rfl⟩, rfl⟩ [true]
    (cB := { state := exStateB' }) rfl rfl rfl none (pB := List.replicate 56 7) (by decide)
    (eB := [.accept 9]) (eB' := [.report exReportB]) (by decide +kernel) (by decide +kernel) (fd := 9) (by decide +kernel) (by simp)
    (new := (Daemon.run none (Daemon.init (List.replicate 56 7)) ([.accept 9] ++ [.report exReportB])).sent) (by decide +kernel) rfl rfl
    (esB := [.received (hexLower exReportB ++ ['\n'])]) ⟨by simp, by simp⟩ (by decide +kernel) (others := []) .nil
  exact ⟨l, h1, h2.trans (by simp [merge])⟩

/-- Device A on USB, device B on KNXnet/IP. -/
example : ∃ l, List.Forall₂ (Tells .float16 (decode16 0x0C3D)) (listening [(⟨42, none⟩, .float16), (⟨41, none⟩, .brightness)] [41, 42]) l ∧
    telegrams (Client.run exClientB [.datagram (tunnelRequest 0 255 (exCame2[0]))]).decoded = l := by
  obtain ⟨l, h1, h2⟩ := c128_from_usb (cA := exUsb) rfl (aA := exAA) (aB := exAB)
    (gB := [(⟨42, none⟩, .float16), (⟨41, none⟩, .brightness)]) rfl rfl rfl rfl (asap := ⟨7, none⟩)
    (d := ⟨.float16, 0x0C3D⟩) (by unfold Dpt.Wf; decide) (f := decode16 0x0C3D) rfl (c := .float16) (by decide +kernel) (by decide) exSends
    exLeads (by decide +kernel) (esA := [.write (.groupWriteReq ⟨7, none⟩ ⟨.float16, 0x0C3D⟩)]) (by decide) rfl
    none (pA := List.replicate 56 0) (by decide) (eA := exDaemonA.take 2) (by decide +kernel) (by decide +kernel)
    (r := usbReport (cemi 0x11 [] (writeTelegram 0x0E89 .float16 0x0C3D)) ++ List.replicate 32 0) (r' := exCame2[0]) (foreign := [])
    (by decide +kernel) ⟨_, List.replicate 32 0, rfl, [], 0xBC, 0x50, 0x1105, by decide, rfl⟩
    (order := [true]) (cB := exClientB) rfl (by decide) rfl rfl (next := 255) rfl
    (esB := [.datagram (tunnelRequest 0 255 (exCame2[0]))]) (.new 0 _ 4 0 0 _ (.nil _)) (others := []) .nil
  exact ⟨l, h1, h2.trans (by simp [merge, exClientB, Client.init, telegrams])⟩

end Knx
