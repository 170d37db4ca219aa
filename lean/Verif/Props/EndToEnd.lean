import Verif.Spec.EndToEnd
import Verif.Props.UsbClient
import Verif.Props.TwoDevices

/-! # C72: from one USB client to another -/

namespace Knx
open Spec Daemon

/-- A line of hexadecimal text of at most 56 octets, read in one piece. -/
theorem line_report (zx : Option Byte) {d : Dmn} (h : d.packet.length = packetLen) (fd : Nat) (st : List Char)
    {line e : List Char} {m : Msg} (hl : HexText line m) (hm : m.length ≤ packetLen) (hend : LineEnd e)
    (hne : line ++ e ≠ []) :
    ∃ report, (Daemon.step zx d (.input fd (some (line ++ e)) st)).device = d.device ++ [report] ∧
      m <+: report ∧ report.length = packetLen ∧
      (Daemon.step zx d (.input fd (some (line ++ e)) st)).packet.length = packetLen := by
  rw [step_input, if_pos ⟨nofun, fun hs => hne (Option.some.inj hs)⟩]
  have hr : (readFromClient zx (some (line ++ e)) st d.packet).2.2 = m ++ d.packet.drop m.length := by
    unfold readFromClient
    split
    · rename_i hs
      cases hs
    · rename_i hs
      exact absurd (Option.some.inj hs) hne
    · rename_i s hs hs'
      cases hs'
      simp only
      rw [chomp_line (hexText_digits hl) hend, hexText_length hl, if_neg (by omega),
        show 2 * m.length / 2 = m.length by omega]
      obtain ⟨h1, h2⟩ := convert_hex zx hl (e ++ st) [] d.packet (by omega)
      simp only [List.length_nil, List.nil_append] at h1 h2
      rw [List.append_assoc]
      generalize convert zx m.length 0 (line ++ (e ++ st)) d.packet = x at h1 h2
      rcases x with ⟨b, o, p⟩
      simp only at h1 h2
      subst h1
      exact h2
  rw [hr]
  have hlen : (m ++ d.packet.drop m.length).length = packetLen := by
    simp only [List.length_append, List.length_drop]
    omega
  refine ⟨m ++ d.packet.drop m.length, ?_, List.prefix_append _ _, hlen, hlen⟩
  rw [← hlen, List.take_length]

/-- The reports written to the device are the lines read, in order and once each. -/
theorem device_lines (zx : Option Byte) {es : List Daemon.Event} {d : Dmn} (hp : d.packet.length = packetLen)
    (he : PossibleAll zx d es) {fs : List Msg} (hf : List.Forall₂ IsLine fs (inputsOf es))
    (hs : ∀ f ∈ fs, f.length ≤ packetLen) :
    ∃ ds, (Daemon.run zx d es).device = d.device ++ ds ∧
      List.Forall₂ (fun f r : Msg => f <+: r ∧ r.length = packetLen) fs ds := by
  induction es generalizing d fs with
  | nil =>
    cases hf
    exact ⟨[], by simp [Daemon.run], .nil⟩
  | cons e es ih =>
    rw [run_cons]
    have other : inputsOf (e :: es) = inputsOf es → (Daemon.step zx d e).device = d.device →
        (Daemon.step zx d e).packet.length = packetLen → ∃ ds,
        (Daemon.run zx (Daemon.step zx d e) es).device = d.device ++ ds ∧
          List.Forall₂ (fun f r : Msg => f <+: r ∧ r.length = packetLen) fs ds := by
      intro h1 h2 h3
      rw [h1] at hf
      rw [← h2]
      exact ih h3 he.2 hf hs
    rcases e with f | data | ⟨f, _ | _ | ⟨c, s⟩, st⟩
    · exact other rfl rfl hp
    · refine other rfl rfl ?_
      have hd : data.length ≤ packetLen := he.1
      simp only [Daemon.step, overwrite, List.length_append, List.length_drop]
      omega
    · refine other rfl ?_ ?_
      · rw [step_input, if_neg (by simp)]
      · rw [step_input, if_neg (by simp)]
        exact (readFromClient_length _ _ _ _).trans hp
    · refine other rfl ?_ ?_
      · rw [step_input, if_neg (by simp)]
      · rw [step_input, if_neg (by simp)]
        exact (readFromClient_length _ _ _ _).trans hp
    · change List.Forall₂ IsLine fs ((c :: s) :: inputsOf es) at hf
      cases hf with
      | cons h1 h2 =>
        rename_i m fs
        obtain ⟨line, hl, hc⟩ := h1
        obtain ⟨report, k1, k2, k3, k4⟩ := line_report zx hp f st hl (hs m (by simp)) (e := ['\n']) (by decide) (by simp)
        rw [← hc] at k1 k4
        obtain ⟨ds, j1, j2⟩ := ih k4 he.2 h2 fun f hf => hs f (by simp [hf])
        exact ⟨report :: ds, by rw [j1, k1]; simp, .cons ⟨k2, k3⟩ j2⟩

/-- A padded report of at most 56 octets says how long its frame is. -/
theorem usbReport_unique {m m' pad pad' : Msg} (h : usbReport m ++ pad = usbReport m' ++ pad')
    (hl : (usbReport m ++ pad).length = packetLen) : m = m' := by
  have hl' := hl
  rw [h] at hl'
  rw [List.length_append, usbReport_length] at hl hl'
  have hp : packetLen = 56 := rfl
  have e : m.length = m'.length := by
    have := congrArg (fun l : Msg => (l[2]?).map BitVec.toNat) h
    simp only [usbReport, List.cons_append, List.nil_append, List.getElem?_cons_succ, List.getElem?_cons_zero,
      Option.map_some, Option.some.injEq, BitVec.toNat_ofNat] at this
    omega
  have := congrArg (fun l : Msg => (l.drop 11).take m.length) h
  simp only [usbReport, octetsOf_two, List.cons_append, List.nil_append, List.drop_succ_cons, List.drop_zero] at this
  rw [List.take_left' rfl, e, List.take_left' rfl] at this
  exact this

theorem forall₂_merge {α β : Type} {R : α → β → Prop} (o : List Bool) {as bs : List α} {as' bs' : List β}
    (h : List.Forall₂ R as as') (h' : List.Forall₂ R bs bs') : List.Forall₂ R (merge o as bs) (merge o as' bs') := by
  induction o generalizing as bs as' bs' with
  | nil =>
    unfold merge
    exact List.rel_append h h'
  | cons b o ih =>
    cases b with
    | true =>
      cases h with
      | nil => unfold merge; exact List.rel_append .nil h'
      | cons h1 h2 => unfold merge; exact .cons h1 (ih h2 h')
    | false =>
      cases h' with
      | nil => unfold merge; exact List.rel_append h .nil
      | cons h1 h2 => unfold merge; exact .cons h1 (ih h h2)

theorem mem_merge {α : Type} (o : List Bool) {as bs : List α} {x : α} (h : x ∈ as) : x ∈ merge o as bs := by
  induction o generalizing as bs with
  | nil => unfold merge; simp [h]
  | cons b o ih =>
    cases b with
    | true =>
      cases h with
      | head => unfold merge; simp
      | tail _ h => unfold merge; simp [ih h]
    | false =>
      cases bs with
      | nil => unfold merge; simp [h]
      | cons y bs => unfold merge; simp [ih h]

theorem forall₂_left {α β : Type} {R : α → β → Prop} {as : List α} {bs : List β} (h : List.Forall₂ R as bs) {a : α}
    (ha : a ∈ as) : ∃ b ∈ bs, R a b := by
  induction h with
  | nil => cases ha
  | cons h1 _ ih =>
    cases ha with
    | head => exact ⟨_, List.mem_cons_self, h1⟩
    | tail _ ha =>
      obtain ⟨b, hb, hr⟩ := ih ha
      exact ⟨b, List.mem_cons_of_mem _ hb, hr⟩

theorem chain {α β γ δ : Type} {P : α → β → Prop} {Q : β → γ → Prop} {S : α → δ → Prop} {T : γ → Prop} {U : γ → δ → Prop}
    {as as' : List α} {bs bs' : List β} {cs : List γ} {ds : List δ} (h1 : List.Forall₂ P as (bs ++ bs'))
    (h2 : List.Forall₂ Q bs cs) (h3 : List.Forall₂ S (as ++ as') ds) (h4 : ∀ c ∈ cs, T c)
    (h : ∀ a b c d, P a b → Q b c → S a d → T c → U c d) : List.Forall₂ U cs (ds.take cs.length) := by
  induction h2 generalizing as ds with
  | nil => exact .nil
  | cons k1 _ ih =>
    cases h1 with
    | cons j1 j2 =>
      cases h3 with
      | cons i1 i2 => exact .cons (h _ _ _ _ j1 k1 i1 (h4 _ (by simp))) (ih j2 i2 fun c hc => h4 c (by simp [hc]))

theorem possible_report {zx : Option Byte} {d : Dmn} {es : List Daemon.Event} (h : PossibleAll zx d es) {r : Msg}
    (hr : r ∈ reportsOf es) : r.length ≤ packetLen := by
  induction es generalizing d with
  | nil => simp [reportsOf] at hr
  | cons e es ih =>
    rcases e with f | data | ⟨f, x, st⟩
    · exact ih h.2 hr
    · rcases List.mem_cons.1 (show r ∈ data :: reportsOf es from hr) with rfl | hr
      · exact h.1
      · exact ih h.2 hr
    · exact ih h.2 hr

theorem possible_suffix {zx : Option Byte} {d : Dmn} {es es' : List Daemon.Event} (h : PossibleAll zx d (es ++ es')) :
    PossibleAll zx (Daemon.run zx d es) es' := by
  induction es generalizing d with
  | nil => exact h
  | cons e es ih => exact ih h.2

theorem arrival_length (info : Msg) (c1 c2 : Byte) (src : BitVec 16) (t : Telegram) :
    (arrival info c1 c2 src (cemi 0x11 [] t)).length = 11 + info.length + t.rest.length := by
  rw [arrival_cemi, cemi_length]
  rfl

theorem carries_arrival {s : State} (hm : s.medium = .usbHid) (info : Msg) (c1 c2 : Byte) (src : BitVec 16) (t : Telegram)
    (pad : Msg) (hl : (usbReport (arrival info c1 c2 src (cemi 0x11 [] t)) ++ pad).length ≤ packetLen) :
    info.length < 256 ∧ Carries s (arrival info c1 c2 src (cemi 0x11 [] t))
      (usbReport (arrival info c1 c2 src (cemi 0x11 [] t)) ++ pad) [] := by
  have hp : packetLen = 56 := rfl
  rw [List.length_append, usbReport_length] at hl
  have := arrival_length info c1 c2 src t
  exact ⟨by omega, .usb pad hm (by omega)⟩

/-- What happens to one request: it can be written as a line, the line fits in a report, and whatever report arrives at
the other installation is read as what the request means there. -/
theorem one_request {sA sB : State} (hA : sA.medium = .usbHid) (hB : sB.medium = .usbHid) {aA aB : AssocTable}
    {gA gB : GroupObjectTable} (haA : sA.assoc = some aA) (hgA : sA.got = some gA) (haB : sB.assoc = some aB)
    (hgB : sB.got = some gB) {m : InMsg} {r : Res} (h : Means aA aB gA gB m r) :
    IsApplication m ∧ ∃ f : Msg, Writable sA m (msgRepr f ++ ['\n']) ∧ (0 < f.length ∧ f.length ≤ 26) ∧
      ∀ d rep, f <+: d → d.length = packetLen → Passes d rep → rep.length ≤ packetLen → Readable sB rep r := by
  have hp : packetLen = 56 := rfl
  have hup : ∀ f : Msg, ∀ c ∈ msgRepr f, c.isLower = false := by
    intro f c hc
    have key : ∀ n, n < 16 → (hexDigit n).isLower = false := by decide
    simp only [msgRepr, List.mem_flatMap, List.mem_cons, List.not_mem_nil, or_false] at hc
    obtain ⟨b, -, rfl | rfl⟩ := hc
    · exact key _ (by have := b.isLt; omega)
    · exact key _ (by omega)
  have frame : ∀ {t : Telegram} {d rep : Msg}, usbReport (cemi 0x11 [] t) <+: d → d.length = packetLen → Passes d rep →
      rep.length ≤ packetLen → ∃ info c1 c2 src, info.length < 256 ∧
        Carries sB (arrival info c1 c2 src (cemi 0x11 [] t)) rep [] := by
    rintro t d rep ⟨pad, rfl⟩ hl ⟨m, pad1, pad2, info, c1, c2, src, e, rfl⟩ hr
    obtain rfl := usbReport_unique e hl
    exact ⟨info, c1, c2, src, carries_arrival hB info c1 c2 src t pad2 hr⟩
  cases m with
  | groupWriteReq asap d =>
    obtain ⟨hd, c, x, vs, hc, ⟨h0, as, h1, h2⟩, ⟨h3, h4, h5⟩, rfl, hs⟩ := h
    have hs' := listed_send h1 h2
    have henc := c28_write_succeeds (s := sA) (d := d) haA hgA hc h1 h2 (f := usbReport (cemi 0x11 [] (writeTelegram x c d.raw)))
      (by unfold envelope; rw [hA])
    refine ⟨trivial, _, ⟨_, _, henc, hexText_msgRepr _, hup _, rfl, (), ?_⟩, ?_, ?_⟩
    · change d.repr = _
      rw [repr_eq, if_pos hd]
    · have := (writeTelegram_facts x c d.raw).2.2.2.2.2.2
      rw [usbReport_length, cemi_length]
      simp only [List.length_nil]
      omega
    · intro dd rep k1 k2 k3 k4
      obtain ⟨info, c1, c2, src, hi, hcar⟩ := frame k1 k2 k3 k4
      obtain ⟨c', m, e1, e2, e3⟩ := c55_write haA hgA haB hgB henc hs' h0 h3 h4 h5
      rw [hc] at e1
      cases e1
      have hm : m = cemi 0x11 [] (writeTelegram x c d.raw) := by
        unfold envelope at e2
        rw [hA] at e2
        have := congrArg (List.drop 11) (Option.some.inj e2)
        simpa [usbReport, octetsOf] using this
      subst hm
      refine ⟨e3 info c1 c2 src rep [] hi hcar ?_, hs⟩
      unfold Shown messages at hs
      simp only at hs
      generalize fanOut .write .ind gB vs (writtenValue c d.raw) = l at hs
      unfold FirstDisplayable
      split
      · exact hs _ _ _ _ List.mem_cons_self
      · trivial
  | groupRead asap =>
    obtain ⟨x, vs, ⟨h0, as, h1, h2⟩, ⟨h3, h4, h5⟩, rfl⟩ := h
    have hs' := listed_send h1 h2
    have henc := c28_read_succeeds (s := sA) haA h1 h2 (f := usbReport (cemi 0x11 [] (readTelegram x)))
      (by unfold envelope; rw [hA])
    refine ⟨trivial, _, ⟨_, _, henc, hexText_msgRepr _, hup _, rfl, (), rfl⟩, ?_, ?_⟩
    · rw [usbReport_length, cemi_length]
      simp [readTelegram, request]
    · intro dd rep k1 k2 k3 k4
      obtain ⟨info, c1, c2, src, hi, hcar⟩ := frame k1 k2 k3 k4
      obtain ⟨m, e2, e3⟩ := c55_read haA haB hgB henc hs' h0 h3 h4 h5
      have hm : m = cemi 0x11 [] (readTelegram x) := by
        unfold envelope at e2
        rw [hA] at e2
        have := congrArg (List.drop 11) (Option.some.inj e2)
        simpa [usbReport, octetsOf] using this
      subst hm
      refine ⟨e3 info c1 c2 src rep [] hi hcar, ?_⟩
      intro k a y d hd
      simp only [messages, fanOut, List.mem_map] at hd
      obtain ⟨p, -, hd⟩ := hd
      cases hd
      unfold Displayable
      simp
  | _ => exact h.elim

/-- What holds of C72: the group requests a USB client writes arrive at a USB client of another installation, with other
tables, each once and in order, as exactly what they mean there, between whatever else is on the bus, provided that the
first daemon reads line by line and that the rest of the traffic can be decoded and displayed. Everything may still be
on its way: the daemon has read some of the lines, and some of the reports have arrived. Missing from the full claim:
two lines read in one piece (`c72_refuted`), and traffic that ends the reading (`c65_refuted`). -/
theorem c72_partial {cA cB : UsbClient} (hA : cA.state.medium = .usbHid) (hB : cB.state.medium = .usbHid)
    {aA aB : AssocTable} {gA gB : GroupObjectTable} (haA : cA.state.assoc = some aA) (hgA : cA.state.got = some gA)
    (haB : cB.state.assoc = some aB) (hgB : cB.state.got = some gB)
    -- the first client writes
    (hw : cA.writing = true) (hw0 : cA.written = []) {esA : List UsbClient.Event} (hfA : .finish ∉ esA) {outs : List Res}
    (hm : List.Forall₂ (Means aA aB gA gB) (messagesOf esA) outs)
    -- its daemon reads some of the lines
    (zx : Option Byte) {pA : List Byte} (hpA : pA.length = packetLen) {eA : List Daemon.Event}
    (hpossA : PossibleAll zx (Daemon.init pA) eA) (hin : inputsOf eA <+: (UsbClient.run cA esA).written)
    -- some of the reports arrive, in between other ones
    {sent arrived foreign : List Msg} (hsent : sent <+: (Daemon.run zx (Daemon.init pA) eA).device)
    (hpass : List.Forall₂ Passes sent arrived) (order : List Bool)
    {pB : List Byte} (hpB : pB.length = packetLen) {eB eB' : List Daemon.Event}
    (hpossB : PossibleAll zx (Daemon.init pB) (eB ++ eB')) (hrep : reportsOf eB' = merge order arrived foreign)
    -- the second client is connected all the time, reads what its daemon sends, and can read the other reports
    {fd : Nat} (hfd : fd ∈ inTable (Daemon.run zx (Daemon.init pB) eB))
    (hc : ∀ st, .input fd none st ∉ eB' ∧ .input fd (some []) st ∉ eB') {new : List (Nat × List Char)}
    (hnew : (Daemon.run zx (Daemon.init pB) (eB ++ eB')).sent = (Daemon.run zx (Daemon.init pB) eB).sent ++ new)
    (hr : cB.reading = true) (hb : cB.buffer = []) {esB : List UsbClient.Event} (heB : .closed ∉ esB ∧ .finish ∉ esB)
    (ht : textOf esB = (new.filter fun p => p.1 = fd).flatMap (·.2)) {fouts : List Res}
    (hfor : List.Forall₂ (Readable cB.state) foreign fouts) :
    (UsbClient.run cB esB).reading = true ∧
    (UsbClient.run cB esB).seen = cB.seen ++ merge order (outs.take arrived.length) fouts := by
  -- the lines
  have hall : ∃ fs : List Msg, List.Forall₂ (fun m f => IsApplication m ∧ Writable cA.state m (msgRepr f ++ ['\n']))
      (messagesOf esA) fs ∧ List.Forall₂ (fun f r => (0 < f.length ∧ f.length ≤ 26) ∧
        ∀ d rep, f <+: d → d.length = packetLen → Passes d rep → rep.length ≤ packetLen → Readable cB.state rep r) fs outs := by
    generalize messagesOf esA = ms at hm
    induction hm with
    | nil => exact ⟨[], .nil, .nil⟩
    | cons h1 h2 ih =>
      obtain ⟨fs, i1, i2⟩ := ih
      obtain ⟨k1, f, k2, k3⟩ := one_request hA hB haA hgA haB hgB h1
      exact ⟨f :: fs, .cons ⟨k1, k2⟩ i1, .cons k3 i2⟩
  obtain ⟨fs, hfs, hfo⟩ := hall
  have hlines : (UsbClient.run cA esA).written = fs.map fun f => msgRepr f ++ ['\n'] := by
    have := (c66_partial hA hw hfA (lines := fs.map fun f => msgRepr f ++ ['\n']) (fun m hm => by
      obtain ⟨f, -, hf⟩ := forall₂_left hfs hm
      exact hf.1) (List.forall₂_map_right_iff.2 (hfs.imp fun _ _ h => h.2))).2.1
    rw [this, hw0, List.nil_append]
  rw [hlines] at hin
  -- the reports of the first installation
  obtain ⟨later, hin⟩ := hin
  obtain ⟨fs1, fs2, rfl, hfs1, -⟩ := List.map_eq_append_iff.1 hin.symm
  have hlin : List.Forall₂ IsLine fs1 (inputsOf eA) := by
    rw [← hfs1, List.forall₂_map_right_iff, List.forall₂_same]
    exact fun f _ => ⟨_, hexText_msgRepr f, rfl⟩
  have hshort : ∀ f ∈ fs1 ++ fs2, f.length ≤ packetLen := by
    intro f hf
    obtain ⟨r, -, hr⟩ := forall₂_left hfo hf
    exact hr.1.2.trans (by decide)
  obtain ⟨ds, hd1, hd2⟩ := device_lines zx hpA hpossA hlin fun f hf => hshort f (by simp [hf])
  change _ = [] ++ ds at hd1
  rw [hd1, List.nil_append] at hsent
  obtain ⟨ds2, rfl⟩ := hsent
  -- what arrives is readable
  have hcar : List.Forall₂ (Readable cB.state) arrived (outs.take arrived.length) := by
    have hlen : ∀ r ∈ arrived, r.length ≤ packetLen := fun r hr =>
      possible_report (possible_suffix hpossB) (by rw [hrep]; exact mem_merge order hr)
    exact chain hd2 hpass hfo hlen fun f d r o h1 h2 h3 h4 => h3.2 d r h1.1 h1.2 h2 h4
  obtain ⟨new', hn1, hn2⟩ := c65_daemon zx hpB hpossB hfd hc
  rw [hnew] at hn1
  obtain rfl := List.append_cancel_left hn1
  rw [hrep] at hn2
  exact c65_partial hB hr hb heB (t := textOf esB) (rest := []) (by simp) (by rw [ht]; exact hn2) (by simp)
    (forall₂_merge order hcar hfor)

/-- The lines of a client's requests, and their lengths. -/
theorem request_lines {cA : UsbClient} {sB : State} (hA : cA.state.medium = .usbHid) (hB : sB.medium = .usbHid)
    {aA aB : AssocTable} {gA gB : GroupObjectTable} (haA : cA.state.assoc = some aA) (hgA : cA.state.got = some gA)
    (haB : sB.assoc = some aB) (hgB : sB.got = some gB) (hw : cA.writing = true) (hw0 : cA.written = [])
    {esA : List UsbClient.Event} (hfA : .finish ∉ esA) {outs : List Res}
    (hm : List.Forall₂ (Means aA aB gA gB) (messagesOf esA) outs) :
    ∃ fs : List Msg, fs.length = (messagesOf esA).length ∧ (∀ f ∈ fs, 0 < f.length ∧ f.length ≤ 26) ∧
      (UsbClient.run cA esA).written = fs.map fun f => msgRepr f ++ ['\n'] := by
  have hall : ∃ fs : List Msg, List.Forall₂ (fun m f => IsApplication m ∧ Writable cA.state m (msgRepr f ++ ['\n']))
      (messagesOf esA) fs ∧ ∀ f ∈ fs, 0 < f.length ∧ f.length ≤ 26 := by
    generalize messagesOf esA = ms at hm
    induction hm with
    | nil => exact ⟨[], .nil, nofun⟩
    | cons h1 h2 ih =>
      obtain ⟨fs, i1, i2⟩ := ih
      obtain ⟨k1, f, k2, k3, -⟩ := one_request hA hB haA hgA haB hgB h1
      exact ⟨f :: fs, .cons ⟨k1, k2⟩ i1, List.forall_mem_cons.2 ⟨k3, i2⟩⟩
  obtain ⟨fs, hfs, hlen⟩ := hall
  refine ⟨fs, hfs.length_eq.symm, hlen, ?_⟩
  have := (c66_partial hA hw hfA (lines := fs.map fun f => msgRepr f ++ ['\n']) (fun m hm => by
    obtain ⟨f, -, hf⟩ := forall₂_left hfs hm
    exact hf.1) (List.forall₂_map_right_iff.2 (hfs.imp fun _ _ h => h.2))).2.1
  rw [this, hw0, List.nil_append]

/-- Two lines read in one piece are an odd number of characters once the last line end is gone: nothing is converted. -/
theorem two_lines (zx : Option Byte) (d : Dmn) (fd : Nat) (st : List Char) {x y : List Char} {f g : Msg} (hx : HexText x f)
    (hy : HexText y g) (hg : g ≠ []) :
    (Daemon.step zx d (.input fd (some (x ++ ['\n'] ++ (y ++ ['\n']))) st)).device = d.device ++ [d.packet.take packetLen] := by
  have hc : chomp (chomp (x ++ ['\n'] ++ (y ++ ['\n']))) = x ++ ['\n'] ++ y := by
    rw [← List.append_assoc, chomp_end (.inl rfl)]
    unfold chomp
    have hne : y ≠ [] := by
      rintro rfl
      have := hexText_length hy
      cases g
      · exact hg rfl
      · simp at this
    have hl : (x ++ ['\n'] ++ y).getLast? = y.getLast? := by
      rw [List.getLast?_append_of_ne_nil _ hne]
    rw [hl]
    rcases hq : y.getLast? with _ | c
    · rfl
    · have := hexText_digits hy c (List.mem_of_getLast? hq)
      simp only
      rw [if_neg]
      rintro (rfl | rfl) <;> exact absurd this (by decide)
  rw [step_input, if_pos ⟨nofun, by simp⟩]
  have hr : (readFromClient zx (some (x ++ ['\n'] ++ (y ++ ['\n']))) st d.packet).2.2 = d.packet := by
    unfold readFromClient
    split
    · rfl
    · rfl
    · rename_i s' _ hs'
      cases hs'
      simp only
      rw [hc, if_pos]
      have h1 := hexText_length hx
      have h2 := hexText_length hy
      simp only [List.length_append, List.length_cons, List.length_nil]
      omega
  simp only [hr]

/-- C72 is false: whatever two group requests a client writes, its daemon may read both lines in one piece. It then writes
neither to the bus, but once more the report that is in its buffer, whatever that is. -/
theorem c72_refuted {cA : UsbClient} {sB : State} (hA : cA.state.medium = .usbHid) (hB : sB.medium = .usbHid)
    {aA aB : AssocTable} {gA gB : GroupObjectTable} (haA : cA.state.assoc = some aA) (hgA : cA.state.got = some gA)
    (haB : sB.assoc = some aB) (hgB : sB.got = some gB) (hw : cA.writing = true) (hw0 : cA.written = [])
    {esA : List UsbClient.Event} (hfA : .finish ∉ esA) {outs : List Res}
    (hm : List.Forall₂ (Means aA aB gA gB) (messagesOf esA) outs) (h2 : (messagesOf esA).length = 2)
    (zx : Option Byte) {pA : List Byte} {eA : List Daemon.Event}
    (hpossA : PossibleAll zx (Daemon.init pA) eA) {fd : Nat} (hfd : fd ∈ (Daemon.run zx (Daemon.init pA) eA).active)
    (st : List Char) :
    PossibleAll zx (Daemon.init pA) (eA ++ [.input fd (some (UsbClient.run cA esA).written.flatten) st]) ∧
    (Daemon.run zx (Daemon.init pA) (eA ++ [.input fd (some (UsbClient.run cA esA).written.flatten) st])).device =
      (Daemon.run zx (Daemon.init pA) eA).device ++ [(Daemon.run zx (Daemon.init pA) eA).packet.take packetLen] := by
  obtain ⟨fs, h3, h4, h5⟩ := request_lines hA hB haA hgA haB hgB hw hw0 hfA hm
  rw [h2] at h3
  obtain ⟨f, g, rfl⟩ := List.length_eq_two.1 h3
  obtain ⟨hf, hg⟩ := List.forall_mem_cons.1 h4
  obtain ⟨hg, -⟩ := List.forall_mem_cons.1 hg
  have htext : (UsbClient.run cA esA).written.flatten = msgRepr f ++ ['\n'] ++ (msgRepr g ++ ['\n']) := by
    rw [h5]
    simp
  have hlen : (msgRepr f ++ ['\n'] ++ (msgRepr g ++ ['\n'])).length ≤ packetLen * 2 + 1 := by
    have k1 := hexText_length (hexText_msgRepr f)
    have k2 := hexText_length (hexText_msgRepr g)
    simp only [List.length_append, List.length_cons, List.length_nil, packetLen]
    omega
  rw [htext]
  constructor
  · clear h4 h5 htext hm
    generalize Daemon.init pA = d at *
    induction eA generalizing d with
    | nil => exact ⟨⟨hfd, fun s hs => by cases hs; exact hlen⟩, trivial⟩
    | cons e es ih => exact ⟨hpossA.1, ih _ hpossA.2 hfd⟩
  · have : ∀ e, Daemon.run zx (Daemon.init pA) (eA ++ [e]) = Daemon.step zx (Daemon.run zx (Daemon.init pA) eA) e := by
      intro e
      unfold Daemon.run
      rw [List.foldl_append]
      rfl
    rw [this]
    exact two_lines zx _ fd st (hexText_msgRepr f) (hexText_msgRepr g) (by rintro rfl; simp at hg)

/-! ## Example -/

/-- The tables of device B on USB. -/
def exStateB' : State :=
  State.init .usbHid (some ((AssocTable.init exAt []).2.afterAll exOpsB)) (some [(⟨42, none⟩, .float16), (⟨41, none⟩, .brightness)])

/-- Client A writes two requests, and reads something in between. -/
def exWrites : List UsbClient.Event :=
  [.write (.groupWriteReq ⟨7, none⟩ ⟨.float16, 0x0C3D⟩), .received "zz\n".toList, .write (.groupRead ⟨7, none⟩)]

/-- What they mean for device B. -/
def exOuts : List Res :=
  [.list [.group .write .ind ⟨42, none⟩ ⟨.float16, 0x0C3D⟩, .group .write .ind ⟨41, none⟩ ⟨.brightness, 0x3D⟩],
    .list [.group .read .ind ⟨42, none⟩ ⟨.float16, 0⟩, .group .read .ind ⟨41, none⟩ ⟨.brightness, 0⟩]]

theorem exSends : SendsTo ((AssocTable.init exAt []).2.afterAll exOps) ⟨7, none⟩ 0x0E89 := by
  refine ⟨by decide, [1], by decide +kernel, ?_⟩
  simp only [List.mem_cons, List.not_mem_nil, or_false, forall_eq_or_imp, forall_eq]
  decide +kernel

theorem exLeads : LeadsTo ((AssocTable.init exAt []).2.afterAll exOpsB) 0x0E89 [41, 42] :=
  ⟨by decide +kernel, c08_exclusive_partial exAt exOpsB (by decide) (by decide) (by decide) _, by decide⟩

theorem exMeans : List.Forall₂ (Means ((AssocTable.init exAt []).2.afterAll exOps) ((AssocTable.init exAt []).2.afterAll exOpsB)
    (exGops.foldl GroupObjectTable.after []) [(⟨42, none⟩, .float16), (⟨41, none⟩, .brightness)])
    (messagesOf exWrites) exOuts := by
  refine .cons ⟨by decide, .float16, 0x0E89, [41, 42], by decide +kernel, exSends, exLeads, by decide +kernel, ?_⟩
    (.cons ⟨0x0E89, [41, 42], exSends, exLeads, by decide +kernel⟩ .nil)
  intro k a x d h
  simp only [messages, List.mem_cons, OutMsg.group.injEq, List.not_mem_nil, or_false] at h
  obtain ⟨-, -, -, rfl⟩ | ⟨-, -, -, rfl⟩ := h <;> decide

/-- The frames of the two requests. -/
def exFrames : List Msg := [cemi 0x11 [] (writeTelegram 0x0E89 .float16 0x0C3D), cemi 0x11 [] (readTelegram 0x0E89)]

/-- Daemon A reads both lines; between them another client comes and goes, and the interface delivers something. -/
def exDaemonA : List Daemon.Event :=
  [.accept 4, .input 4 (some (msgRepr (usbReport (cemi 0x11 [] (writeTelegram 0x0E89 .float16 0x0C3D))) ++ ['\n'])) ['0'], .accept 5,
    .report [1, 2, 3], .input 5 (some []) [],
    .input 4 (some (msgRepr (usbReport (cemi 0x11 [] (readTelegram 0x0E89))) ++ ['\n'])) []]

/-- The reports it writes: the second one ends with what is left of the first one. -/
def exSent : List Msg :=
  [usbReport (cemi 0x11 [] (writeTelegram 0x0E89 .float16 0x0C3D)) ++ List.replicate 32 0,
    usbReport (cemi 0x11 [] (readTelegram 0x0E89)) ++ ([0x0C, 0x3D] ++ List.replicate 32 0)]

/-- The reports at device B: a read of an address it does not have comes between the two requests. -/
def exArrived : List Msg := exFrames.map fun m => usbReport (arrival [] 0xBC 0x50 0x1105 m) ++ [0, 0]

def exForeign : List Msg := [usbReport (cemi 0x29 [] { readTelegram 0x0123 with source := 0x1106 })]

def exDaemonB : List Daemon.Event := (merge [true, false, true] exArrived exForeign).map .report

example : (UsbClient.run { state := exStateB' } [.received ((exDaemonB.flatMap fun
      | .report d => hexLower d ++ ['\n']
      | _ => []))]).seen = merge [true, false, true] exOuts [.list []] := by
  have h := (c72_partial (cA := exUsb) (cB := { state := exStateB' }) rfl rfl rfl rfl rfl rfl rfl rfl (esA := exWrites) (by decide)
    exMeans none (pA := List.replicate 56 0) (by decide) (eA := exDaemonA) (by decide +kernel) (by decide +kernel)
    (sent := exSent) (arrived := exArrived) (foreign := exForeign) (by decide +kernel) ?_ [true, false, true] (pB := List.replicate 56 7) (by decide)
    (eB := [.accept 9]) (eB' := exDaemonB) (by decide +kernel) (by decide +kernel) (fd := 9) (by decide +kernel) ?_
    (new := (Daemon.run none (Daemon.init (List.replicate 56 7)) ([.accept 9] ++ exDaemonB)).sent) (by decide +kernel) rfl rfl
    (esB := [.received ((exDaemonB.flatMap fun
      | .report d => hexLower d ++ ['\n']
      | _ => []))]) ⟨by simp, by simp⟩ (by decide +kernel) (fouts := [.list []]) ?_).2
  · rw [h]
    decide +kernel
  · exact .cons ⟨_, List.replicate 32 0, [0, 0], [], 0xBC, 0x50, 0x1105, rfl, rfl⟩
      (.cons ⟨_, [0x0C, 0x3D] ++ List.replicate 32 0, [0, 0], [], 0xBC, 0x50, 0x1105, rfl, rfl⟩ .nil)
  · simp [exDaemonB]
  · exact .cons ⟨by decide +kernel, fun k a x d h => by simp [messages] at h⟩ .nil

/-- The same two lines, read in one piece: both are lost, and the report [1, 2, 3] with what follows it in the buffer is
written. -/
example : ∃ text, (Daemon.run none (Daemon.init (List.replicate 56 0)) [.accept 4, .report [1, 2, 3], .input 4 (some text) []]).device =
    [[1, 2, 3] ++ List.replicate 53 0] :=
  ⟨_, (c72_refuted (cA := exUsb) (sB := exStateB') rfl rfl rfl rfl rfl rfl rfl rfl (esA := exWrites) (by decide) exMeans rfl none
    (pA := List.replicate 56 0) (eA := [.accept 4, .report [1, 2, 3]]) (by decide +kernel) (fd := 4) (by decide +kernel) []).2⟩

end Knx
