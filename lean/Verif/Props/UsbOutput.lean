import Verif.Props.ClientOutput
import Verif.Props.UsbLog
import Verif.Spec.UsbOutput

/-! # C124: what the USB program prints -/

namespace Knx
open Spec

theorem items_shown {fr : PyFloat → List Char} {order : DptClass → List DptProp} {l : List OutMsg} {ts : List (List Char)}
    (hf : List.Forall₂ (fun (m : OutMsg) t => m.text fr order = .ok t) l ts) : ∃ t, listItems fr order l = .ok t := by
  induction hf with
  | nil => exact ⟨_, rfl⟩
  | @cons m t l ts hm hf ih =>
    obtain ⟨u, hu⟩ := ih
    cases l with
    | nil => exact ⟨t ++ "]".toList, by simp only [listItems, hm]⟩
    | cons m' l => exact ⟨t ++ ", ".toList ++ u, by simp only [listItems, hm]; rw [hu]⟩

/-- What has no text is not shown. -/
theorem text_shows {fr : PyFloat → List Char} {order : DptClass → List DptProp} {r : Res} {e : Err}
    (h : r.text fr order = .error e) (line : List Char) : ¬ ShowsRead fr order r line := by
  have key : ∀ l, listText fr order l = .error e →
      ¬ ∃ ts, List.Forall₂ (fun (m : OutMsg) t => m.text fr order = .ok t) l ts ∧ line = fill "read [{}]".toList [sepBy ", " ts] := by
    rintro l h ⟨ts, hf, -⟩
    obtain ⟨t, ht⟩ := items_shown hf
    unfold listText at h
    rw [ht] at h
    cases h
  cases r with
  | none => cases h
  | list l => exact key l h
  | tuple l => exact key l h

theorem shown_nil (l : List (LogLevel × List Char)) : l ++ shownLines [] = l := List.append_nil l

/-- What one line of the daemon makes the program print. -/
theorem usb_printed_one {v : Display} (ho : OrderOk v.order) {c : PrintedUsb} (hr : c.usb.reading = true) {line : List Char} {f : Msg}
    (h : stringToOctets line.dropLast = .ok f) :
    ∃ own, PrintedUsb.readOne v c line =
        ⟨c.usb.readOne line, c.lines ++ shownLines (frameLines v c.usb.state f) ++ own⟩ ∧
      ReadLine v (decodeMsg f c.usb.state).1 own := by
  have hu := (usb_one v.floats ho ⟨c.usb, []⟩ line).1
  unfold LoggedUsb.readOne at hu
  unfold PrintedUsb.readOne
  rw [if_pos hr] at hu ⊢
  rw [h] at hu ⊢
  simp only at hu ⊢
  rw [c119_log ho]
  rcases hx : decodeMsg f c.usb.state with ⟨e | r, s⟩ <;> rw [hx] at hu
  · refine ⟨[], ?_, rfl⟩
    rw [List.append_nil, ← hu]
    rfl
  · simp only at hu ⊢
    cases ht : r.text v.floats v.order with
    | error e =>
      rw [ht] at hu
      refine ⟨[], ?_, .inr ⟨rfl, text_shows ht⟩⟩
      rw [List.append_nil, ← hu]
      rfl
    | ok t =>
      rw [ht] at hu
      refine ⟨[(.error, "read ".toList ++ t)], ?_, .inl ⟨_, res_text ht, rfl⟩⟩
      rw [← hu]
      rfl

/-- What writing a message makes the program print. -/
theorem usb_printed_write {v : Display} (ho : OrderOk v.order) {c : PrintedUsb} (hc : Counted c.usb.state)
    (hw : c.usb.writing = true) (m : InMsg) :
    ∃ own, PrintedUsb.step v c (.write m) =
        ⟨UsbClient.step c.usb (.write m), c.lines ++ shownLines (encodedLines (encodeMsg m c.usb.state).1) ++ own⟩ ∧
      WrittenLine v m (encodeMsg m c.usb.state).1 own := by
  have hu := (usb_write v.floats ho ⟨c.usb, []⟩ m).1
  simp only [LoggedUsb.step, LoggedUsb.write, usbWriteLine_eq] at hu
  simp only [PrintedUsb.step, PrintedUsb.write]
  rw [if_pos hw] at hu ⊢
  rw [c121_log m (c := ⟨c.usb.state, []⟩) hc.1 hc.2]
  rcases hx : encodeMsg m c.usb.state with ⟨e | f, s⟩ <;> rw [hx] at hu
  · refine ⟨[], ?_, rfl⟩
    rw [List.append_nil, ← hu]
    rfl
  · simp only at hu ⊢
    cases ht : m.text v.floats v.order with
    | error e =>
      rw [ht] at hu
      refine ⟨[], ?_, .inr ⟨rfl, fun line h => ?_⟩⟩
      · rw [List.append_nil, ← hu]
        rfl
      · obtain ⟨t, h, -⟩ := h
        rw [ht] at h
        cases h
    | ok t =>
      rw [ht] at hu
      refine ⟨[(.error, "written ".toList ++ t)], ?_, .inl ⟨_, ⟨t, ht, ?_⟩, rfl⟩⟩
      · rw [← hu]
        rfl
      · simp [fill]


/-- C124: for every report the program prints what the decoders log and then, if it was decoded and can be shown, what it was decoded to;
and nothing once the task that reads has ended. -/
theorem c124_report {v : Display} (ho : OrderOk v.order) {c : PrintedUsb} (hb : c.usb.buffer = []) {line : List Char} {f : Msg}
    (h : HexText line f) :
    ∃ own, PrintedUsb.step v c (.received (line ++ ['\n'])) =
        ⟨UsbClient.step c.usb (.received (line ++ ['\n'])),
          c.lines ++ (if c.usb.reading then shownLines (frameLines v c.usb.state f) else []) ++ own⟩ ∧
      if c.usb.reading then ReadLine v (decodeMsg f c.usb.state).1 own else own = [] := by
  have hn : '\n' ∉ line := fun hmem => by
    have := hexText_digits h _ hmem
    revert this
    decide
  have hs : UsbClient.splitLines [] (c.usb.buffer ++ (line ++ ['\n'])) = ([line ++ ['\n']], []) := by
    rw [hb, List.nil_append, splitLines_line hn]
    rfl
  simp only [PrintedUsb.step, UsbClient.step, PrintedUsb.received, UsbClient.received, hs, List.foldl_cons, List.foldl_nil]
  cases hr : c.usb.reading with
  | true =>
    obtain ⟨own, h1, h2⟩ := usb_printed_one ho hr (line := line ++ ['\n']) (f := f)
      (by rw [List.dropLast_concat]; exact hexText_octets h)
    exact ⟨own, by rw [h1]; simp, by simpa using h2⟩
  | false =>
    refine ⟨[], ?_, by simp⟩
    simp [PrintedUsb.readOne, UsbClient.readOne, hr]

/-- C124: for every message the program prints what the encoders log and then, if it was encoded and can be shown, the message; and
nothing once the task that writes has ended. -/
theorem c124_write {v : Display} (ho : OrderOk v.order) {c : PrintedUsb} (hl : c.usb.state.seqLocal < 256)
    (hr : c.usb.state.seqRemote < 256) (m : InMsg) :
    ∃ own, PrintedUsb.step v c (.write m) =
        ⟨UsbClient.step c.usb (.write m),
          c.lines ++ (if c.usb.writing then shownLines (encodedLines (encodeMsg m c.usb.state).1) else []) ++ own⟩ ∧
      if c.usb.writing then WrittenLine v m (encodeMsg m c.usb.state).1 own else own = [] := by
  cases hw : c.usb.writing with
  | true =>
    obtain ⟨own, h1, h2⟩ := usb_printed_write ho ⟨hl, hr⟩ hw m
    exact ⟨own, by rw [h1]; simp, by simpa using h2⟩
  | false =>
    refine ⟨[], ?_, by simp⟩
    simp [PrintedUsb.step, UsbClient.step, PrintedUsb.write, UsbClient.write, hw]

/-! ## The lines of level ERROR are those of the client -/

theorem encoded_level {r : Except Err Msg} : ∀ l ∈ encodedLines r, l.level ≠ .error := by
  cases r with
  | error e => intro l h; cases h
  | ok f =>
    intro l h
    have h : l ∈ sentLines f := h
    unfold sentLines at h
    split at h
    · rw [List.mem_singleton.1 h]; nofun
    · rw [List.mem_singleton.1 h]; nofun
    · cases h

theorem report_level {v : Display} {s : State} (hm : s.medium = .usbHid) (f : Msg) : ∀ l ∈ frameLines v s f, l.level ≠ .error := by
  intro l h
  unfold frameLines at h
  rw [hm] at h
  simp only at h
  cases hr : cemiInReport f with
  | none => rw [hr] at h; cases h
  | some x =>
    rw [hr] at h
    have h : l ∈ cemiLines v s.assoc (telegramMessages (decodeMsg f s).1) x := h
    unfold cemiLines at h
    split at h
    · split at h
      · cases h
      · split_ifs at h
        · unfold telegramLines at h
          simp only at h
          split_ifs at h
          · cases h
          · split at h
            · cases h
            · split_ifs at h
              · rw [List.mem_singleton.1 h]; nofun
              · split at h
                · cases h
                · rw [List.mem_singleton.1 h]; nofun
        · cases h
    · cases h

theorem errors_append (a b : List (LogLevel × List Char)) : errorTexts (a ++ b) = errorTexts a ++ errorTexts b := by
  unfold errorTexts
  rw [List.filter_append, List.map_append]

theorem errors_none {l : List LogLine} (h : ∀ x ∈ l, x.level ≠ .error) : errorTexts (shownLines l) = [] := by
  unfold errorTexts shownLines
  rw [List.map_eq_nil_iff, List.filter_eq_nil_iff]
  intro x hx
  obtain ⟨y, hy, rfl⟩ := List.mem_map.1 hx
  simpa using h y hy

theorem encode_medium (m : InMsg) (s : State) : (encodeMsg m s).2.medium = s.medium := by
  obtain ⟨_, _, _, _, h, -⟩ := c37_frame m s
  rw [h]

/-- The program and its client. -/
def SameUsb (p : PrintedUsb) (q : LoggedUsb) : Prop :=
  p.usb = q.usb ∧ errorTexts p.lines = q.log ∧ p.usb.state.medium = .usbHid ∧ Counted p.usb.state

theorem same_one {v : Display} (ho : OrderOk v.order) {p : PrintedUsb} {q : LoggedUsb} (h : SameUsb p q) (line : List Char) :
    SameUsb (PrintedUsb.readOne v p line) (LoggedUsb.readOne v.floats v.order q line) := by
  obtain ⟨rfl', h2, h3, h4⟩ := h
  obtain ⟨u, ls⟩ := p
  obtain ⟨u', log⟩ := q
  simp only at rfl' h2 h3 h4
  subst rfl'
  unfold PrintedUsb.readOne LoggedUsb.readOne
  split_ifs with hr
  · simp only
    cases stringToOctets line.dropLast with
    | error e => exact ⟨rfl, h2, h3, h4⟩
    | ok f =>
      simp only
      rw [c119_log ho]
      have hn := errors_none (report_level (v := v) h3 f)
      have hm : (decodeMsg f u.state).2.medium = .usbHid ∧ Counted (decodeMsg f u.state).2 :=
        ⟨(c33_tables f u.state).1.trans h3, (counters_after u.state ⟨h4.2, h4.1⟩ (.decode f)).symm⟩
      rcases hx : decodeMsg f u.state with ⟨e | r, s⟩ <;> rw [hx] at hm
      · refine ⟨rfl, ?_, hm⟩
        show errorTexts (ls ++ shownLines ([] ++ frameLines v u.state f)) = _
        rw [List.nil_append, errors_append, hn, List.append_nil, h2]
      · simp only
        cases ht : r.text v.floats v.order with
        | error e =>
          refine ⟨rfl, ?_, hm⟩
          show errorTexts (ls ++ shownLines ([] ++ frameLines v u.state f)) = _
          rw [List.nil_append, errors_append, hn, List.append_nil, h2]
        | ok t =>
          refine ⟨rfl, ?_, hm⟩
          show errorTexts (ls ++ shownLines ([] ++ frameLines v u.state f) ++ [(.error, "read ".toList ++ t)]) = _
          rw [List.nil_append, errors_append, errors_append, hn, List.append_nil, h2]
          rfl
  · exact ⟨rfl, h2, h3, h4⟩

theorem same_lines {v : Display} (ho : OrderOk v.order) (lines : List (List Char)) {p : PrintedUsb} {q : LoggedUsb} (h : SameUsb p q) :
    SameUsb (lines.foldl (PrintedUsb.readOne v) p) (lines.foldl (LoggedUsb.readOne v.floats v.order) q) := by
  induction lines generalizing p q with
  | nil => exact h
  | cons line lines ih => exact ih (same_one ho h line)

theorem same_buffer {p : PrintedUsb} {q : LoggedUsb} (h : SameUsb p q) (b : List Char) :
    SameUsb { p with usb := { p.usb with buffer := b } } { q with usb := { q.usb with buffer := b } } :=
  ⟨by show { p.usb with buffer := b } = { q.usb with buffer := b }; rw [h.1], h.2.1, h.2.2.1, h.2.2.2⟩

theorem same_step {v : Display} (ho : OrderOk v.order) {p : PrintedUsb} {q : LoggedUsb} (h : SameUsb p q) (e : UsbClient.Event) :
    SameUsb (PrintedUsb.step v p e) (LoggedUsb.step v.floats v.order q e) := by
  have hu := h.1
  cases e with
  | received text =>
    simp only [PrintedUsb.step, LoggedUsb.step, PrintedUsb.received, LoggedUsb.received, ← hu]
    exact same_buffer (same_lines ho _ h) _
  | closed =>
    simp only [PrintedUsb.step, LoggedUsb.step, PrintedUsb.closed, LoggedUsb.closed, ← hu]
    exact same_buffer (same_one ho (same_one ho h _) _) _
  | write m =>
    obtain ⟨-, h2, h3, h4⟩ := h
    obtain ⟨u, ls⟩ := p
    obtain ⟨u', log⟩ := q
    simp only at hu h2 h3 h4
    subst hu
    simp only [PrintedUsb.step, LoggedUsb.step, PrintedUsb.write, LoggedUsb.write, usbWriteLine_eq]
    split_ifs with hw
    · rw [c121_log m (c := ⟨u.state, []⟩) h4.1 h4.2]
      have hn := errors_none (encoded_level (r := (encodeMsg m u.state).1))
      have hm : (encodeMsg m u.state).2.medium = .usbHid ∧ Counted (encodeMsg m u.state).2 :=
        ⟨(encode_medium m u.state).trans h3, (counters_after u.state ⟨h4.2, h4.1⟩ (.encode m)).symm⟩
      rcases hx : encodeMsg m u.state with ⟨e | f, s⟩ <;> rw [hx] at hm hn
      · refine ⟨rfl, ?_, hm⟩
        show errorTexts (ls ++ shownLines ([] ++ encodedLines (.error e))) = _
        rw [List.nil_append, errors_append, hn, List.append_nil, h2]
      · simp only at hn ⊢
        cases ht : m.text v.floats v.order with
        | error e =>
          refine ⟨rfl, ?_, hm⟩
          show errorTexts (ls ++ shownLines ([] ++ encodedLines (.ok f))) = _
          rw [List.nil_append, errors_append, hn, List.append_nil, h2]
        | ok t =>
          refine ⟨rfl, ?_, hm⟩
          show errorTexts (ls ++ shownLines ([] ++ encodedLines (.ok f)) ++ [(.error, "written ".toList ++ t)]) = _
          rw [List.nil_append, errors_append, errors_append, hn, List.append_nil, h2]
          rfl
    · exact ⟨rfl, h2, h3, h4⟩
  | finish =>
    refine ⟨by simp only [PrintedUsb.step, LoggedUsb.step, hu], h.2.1, ?_⟩
    simp only [PrintedUsb.step, UsbClient.finish]
    split_ifs
    · exact ⟨h.2.2.1, h.2.2.2⟩
    · exact ⟨h.2.2.1, h.2.2.2⟩

/-- C124: the lines of level ERROR are the log of the client that C118 describes, although nothing went wrong; printing the others changes
neither these nor the client. -/
theorem c124_own {v : Display} (ho : OrderOk v.order) {u : UsbClient} (hm : u.state.medium = .usbHid) (hl : u.state.seqLocal < 256)
    (hr : u.state.seqRemote < 256) (es : List UsbClient.Event) :
    (PrintedUsb.run v ⟨u, []⟩ es).usb = UsbClient.run u es ∧
    errorTexts (PrintedUsb.run v ⟨u, []⟩ es).lines = (LoggedUsb.run v.floats v.order ⟨u, []⟩ es).log := by
  have key : ∀ (es : List UsbClient.Event) (p : PrintedUsb) (q : LoggedUsb), SameUsb p q →
      SameUsb (PrintedUsb.run v p es) (LoggedUsb.run v.floats v.order q es) := by
    intro es
    induction es with
    | nil => exact fun p q h => h
    | cons e es ih => exact fun p q h => ih _ _ (same_step ho h e)
  obtain ⟨h1, h2, -⟩ := key es ⟨u, []⟩ ⟨u, []⟩ ⟨rfl, rfl, hm, hl, hr⟩
  exact ⟨h1.trans (c118_log v.floats ho ⟨u, []⟩ es).1, h2⟩

/-! ## Telegrams -/

theorem report_telegram {v : Display} (ho : OrderOk v.order) {s : State} (hm : s.medium = .usbHid) {f x : Msg} (hx : cemiInReport f = some x)
    {k : Kind} {t : Telegram} (ht : HasTelegram x k.confirms t) :
    (decodeMsg f s).1 = lDataDecode k s.tables (ldataOf t) (payload t) ∧
    frameLines v s f = telegramLines v k.confirms s.assoc (resultOf (decodeMsg f s).1) t := by
  have h1 : decodeMsg f s = msgCodeDecode x s := by
    unfold decodeMsg
    rw [hm]
    exact congrFun ((reportId_logs ho f).2 x hx) s
  constructor
  · rw [h1, (carries_telegram ht s).1]
  · unfold frameLines
    rw [hm]
    simp only
    rw [hx, telegramMessages_own fun r h => msgCode_form (m := x) (s := s) (by rw [← h1]; exact h)]
    exact cemi_telegram ht v _ _

theorem read_empty {v : Display} {r : Res} (h : messages r = []) {own : List (LogLevel × List Char)} (ho : ReadLine v (.ok r) own) :
    own = [(.error, "read []".toList)] ∨ r = .none ∧ own = [(.error, "read None".toList)] := by
  have hl : ∀ r : Res, r ≠ .none → messages r = [] → ReadLine v (.ok r) own → own = [(.error, "read []".toList)] := by
    intro r hn hr ho
    have hs : ∀ line, ShowsRead v.floats v.order r line ↔ line = "read []".toList := by
      intro line
      have h0 : fill "read [{}]".toList [sepBy ", " []] = "read []".toList := by decide +kernel
      cases r with
      | none => exact absurd rfl hn
      | list l | tuple l =>
        obtain rfl : l = [] := hr
        constructor
        · rintro ⟨ts, hf, rfl⟩
          cases hf
          exact h0
        · rintro rfl
          exact ⟨[], .nil, h0.symm⟩
    rcases ho with ⟨line, h1, rfl⟩ | ⟨-, h1⟩
    · rw [(hs line).1 h1]
    · exact absurd ((hs _).2 rfl) (h1 _)
  cases r with
  | none =>
    right
    refine ⟨rfl, ?_⟩
    rcases ho with ⟨line, h1, rfl⟩ | ⟨-, h1⟩
    · rw [show line = "read None".toList from h1]
    · exact absurd rfl (h1 _)
  | list l => exact .inl (hl (.list l) nofun h ho)
  | tuple l => exact .inl (hl (.tuple l) nofun h ho)

/-- C124: a telegram for others is printed, octets and addresses, followed by an empty list. -/
theorem c124_discarded {v : Display} (ho : OrderOk v.order) {c : PrintedUsb} {a : AssocTable} (hb : c.usb.buffer = [])
    (hr : c.usb.reading = true) (hm : c.usb.state.medium = .usbHid) (ha : c.usb.state.assoc = some a) {line : List Char} {f x : Msg}
    {confirmation : Bool} {t : Telegram} (h : HexText line f) (hx : cemiInReport f = some x) (ht : HasTelegram x confirmation t)
    (h4 : t.tpci.toNat < 4) (h0 : 128 ≤ t.ctrl2.toNat → t.destination ≠ 0)
    (hf : forOthers a (128 ≤ t.ctrl2.toNat) confirmation t.source t.destination) :
    (PrintedUsb.step v c (.received (line ++ ['\n']))).lines = c.lines ++
      [(.info, fill "discarded msg {} source: {} (0x{}), destination: {} (0x{}), address_type: {}".toList
          (payloadWord t :: addressFields v.named (128 ≤ t.ctrl2.toNat) t.source t.destination)),
        (.error, "read []".toList)] := by
  obtain ⟨k, rfl⟩ := kind_confirms confirmation
  obtain ⟨own, h1, h2⟩ := c124_report ho hb h
  obtain ⟨h3, h5⟩ := report_telegram ho hm hx ht
  rw [others_decode (tb := c.usb.state.tables) ha h4 h0 hf] at h3
  rw [hr, if_pos rfl, h3] at h2
  have hown := (read_empty (r := .list []) rfl h2).resolve_right fun h => nomatch h.1
  have hn : ¬ (4 ≤ t.tpci.toNat ∨ decide (128 ≤ t.ctrl2.toNat) = true ∧ t.destination = 0) := by
    rintro (h | ⟨h, h'⟩)
    · omega
    · exact h0 (of_decide_eq_true h) h'
  rw [h1, hr, if_pos rfl, h5, hown, ha]
  unfold telegramLines
  simp only [if_neg hn]
  rw [if_pos hf, List.append_assoc]
  rfl

/-- C124: any other telegram that can be decoded and shown is printed too, octets and addresses, followed by the value and the ASAPs and
then by the messages. -/
theorem c124_received {v : Display} (ho : OrderOk v.order) {c : PrintedUsb} {a : AssocTable} (hb : c.usb.buffer = [])
    (hr : c.usb.reading = true) (hm : c.usb.state.medium = .usbHid) (ha : c.usb.state.assoc = some a) {line : List Char} {f x : Msg}
    {confirmation : Bool} {t : Telegram} (h : HexText line f) (hx : cemiInReport f = some x) (ht : HasTelegram x confirmation t)
    (h4 : t.tpci.toNat < 4) (h0 : 128 ≤ t.ctrl2.toNat → t.destination ≠ 0)
    (hf : ¬ forOthers a (128 ≤ t.ctrl2.toNat) confirmation t.source t.destination) {r : Res}
    (hd : (decodeMsg f c.usb.state).1 = .ok r) :
    ∃ own, (PrintedUsb.step v c (.received (line ++ ['\n']))).lines = c.lines ++
      (.debug, fill "received msg {} source: {} (0x{}), destination: {} (0x{}), address_type: {} {}".toList
          (payloadWord t :: addressFields v.named (128 ≤ t.ctrl2.toNat) t.source t.destination ++ [outcomeWord v (messages r)])) :: own ∧
      ReadLine v (.ok r) own := by
  obtain ⟨k, rfl⟩ := kind_confirms confirmation
  obtain ⟨own, h1, h2⟩ := c124_report ho hb h
  obtain ⟨-, h5⟩ := report_telegram ho hm hx ht
  rw [hr, if_pos rfl, hd] at h2
  have hn : ¬ (4 ≤ t.tpci.toNat ∨ decide (128 ≤ t.ctrl2.toNat) = true ∧ t.destination = 0) := by
    rintro (h | ⟨h, h'⟩)
    · omega
    · exact h0 (of_decide_eq_true h) h'
  refine ⟨own, ?_, h2⟩
  rw [h1, hr, if_pos rfl, h5, hd, ha]
  unfold telegramLines
  simp only [if_neg hn]
  rw [if_neg hf, List.append_assoc]
  rfl

/-- C124 fails for the telegrams that are connection oriented, tagged or broadcasts: whatever they carry, all that is printed is that
nothing was read. -/
theorem c124_refuted {v : Display} (ho : OrderOk v.order) {c : PrintedUsb} (hb : c.usb.buffer = []) (hr : c.usb.reading = true)
    (hm : c.usb.state.medium = .usbHid) {line : List Char} {f x : Msg} {confirmation : Bool} {t : Telegram} (h : HexText line f)
    (hx : cemiInReport f = some x) (ht : HasTelegram x confirmation t)
    (hn : 4 ≤ t.tpci.toNat ∨ 128 ≤ t.ctrl2.toNat ∧ t.destination = 0) :
    (PrintedUsb.step v c (.received (line ++ ['\n']))).lines = c.lines ++ [(.error, "read []".toList)] ∨
    (PrintedUsb.step v c (.received (line ++ ['\n']))).lines = c.lines ++ [(.error, "read None".toList)] := by
  obtain ⟨own, h1, h2⟩ := c124_report ho hb h
  obtain ⟨h3, -⟩ := c119_refuted (v := v) (.inl ⟨hm, hx⟩) ht hn
  obtain ⟨k, rfl⟩ := kind_confirms confirmation
  obtain ⟨-, h5⟩ := report_telegram ho hm hx ht
  have h6 : decodeMsg f c.usb.state = msgCodeDecode x c.usb.state := by
    unfold decodeMsg
    rw [hm]
    exact congrFun ((reportId_logs ho f).2 x hx) c.usb.state
  rw [telegramMessages_own fun r h => msgCode_form (m := x) (s := c.usb.state) (by rw [← h6]; exact h)] at h3
  rw [hr, if_pos rfl] at h2
  rw [h1, hr, if_pos rfl, h5]
  unfold telegramLines
  simp only [if_pos (hn.imp_right (And.imp_left decide_eq_true))]
  rw [shown_nil]
  cases hd : (decodeMsg f c.usb.state).1 with
  | error e => rw [hd] at h3; cases h3
  | ok r =>
    rw [hd] at h3 h2
    rcases read_empty (Option.some.inj h3) h2 with h | ⟨-, h⟩
    · rw [h]; exact .inl rfl
    · rw [h]; exact .inr rfl

/-- The example client on USB. -/
def exPrintedUsb : PrintedUsb := ⟨⟨exState .usbHid, [], true, true, [], []⟩, []⟩

/-- A write to a group that is not in the table. -/
example : (PrintedUsb.step exDisplay exPrintedUsb (.received (msgRepr
      [0x01, 0x13, 0x13, 0x00, 0x08, 0x00, 0x0B, 0x01, 0x03, 0, 0, 0x29, 0, 0xBC, 0xE0, 0x11, 0x0A, 0x0E, 0x8A, 1, 0, 0x81] ++ ['\n']))).lines =
    [(.info, "discarded msg 81 source: 4362 (0x110A), destination: 3722 (0x0E8A), address_type: 1".toList),
      (.error, "read []".toList)] := by
  rw [c124_discarded (c := exPrintedUsb) exOrderOk rfl rfl rfl rfl (hexText_msgRepr _)
    (x := [0x29, 0, 0xBC, 0xE0, 0x11, 0x0A, 0x0E, 0x8A, 1, 0, 0x81]) (by decide +kernel) (confirmation := false)
    (t := ⟨0xBC, 0xE0, 0x110A, 0x0E8A, 1, 0, 0x81, []⟩) ⟨0, _, rfl, by decide +kernel⟩ (by decide) (fun _ => by decide) (by decide +kernel)]
  decide +kernel

/-- A write to one that is. -/
example : ∃ own r l, (PrintedUsb.step exDisplay exPrintedUsb (.received (msgRepr
      [0x01, 0x13, 0x13, 0x00, 0x08, 0x00, 0x0B, 0x01, 0x03, 0, 0, 0x29, 0, 0xBC, 0xE0, 0x11, 0x0A, 0x0E, 0x89, 1, 0, 0x81] ++ ['\n']))).lines =
    l :: own ∧ ReadLine exDisplay (.ok r) own := by
  obtain ⟨r, hr⟩ : ∃ r, (decodeMsg
      [0x01, 0x13, 0x13, 0x00, 0x08, 0x00, 0x0B, 0x01, 0x03, 0, 0, 0x29, 0, 0xBC, 0xE0, 0x11, 0x0A, 0x0E, 0x89, 1, 0, 0x81]
      exPrintedUsb.usb.state).1 = .ok r := ⟨_, rfl⟩
  obtain ⟨own, h1, h2⟩ := c124_received (v := exDisplay) (c := exPrintedUsb) exOrderOk rfl rfl rfl rfl (hexText_msgRepr _)
    (x := [0x29, 0, 0xBC, 0xE0, 0x11, 0x0A, 0x0E, 0x89, 1, 0, 0x81]) (by decide +kernel) (confirmation := false)
    (t := ⟨0xBC, 0xE0, 0x110A, 0x0E89, 1, 0, 0x81, []⟩) ⟨0, _, rfl, by decide +kernel⟩ (by decide) (fun _ => by decide) (by decide +kernel) hr
  exact ⟨own, r, _, h1, h2⟩

/-- The opening of a connection. -/
example : (PrintedUsb.step exDisplay exPrintedUsb (.received (msgRepr
      [0x01, 0x13, 0x13, 0x00, 0x08, 0x00, 0x0B, 0x01, 0x03, 0, 0, 0x29, 0, 0xB0, 0x60, 0x11, 0x0A, 0x10, 0x04, 0, 0x80, 0] ++ ['\n']))).lines ≠
    [] := by
  rcases c124_refuted (v := exDisplay) (c := exPrintedUsb)
    (f := [0x01, 0x13, 0x13, 0x00, 0x08, 0x00, 0x0B, 0x01, 0x03, 0, 0, 0x29, 0, 0xB0, 0x60, 0x11, 0x0A, 0x10, 0x04, 0, 0x80, 0]) exOrderOk rfl rfl rfl (hexText_msgRepr _)
    (x := [0x29, 0, 0xB0, 0x60, 0x11, 0x0A, 0x10, 0x04, 0, 0x80, 0]) (by decide +kernel) (confirmation := false)
    (t := ⟨0xB0, 0x60, 0x110A, 0x1004, 0, 0x80, 0, []⟩) ⟨0, _, rfl, by decide +kernel⟩ (.inl (by decide)) with h | h <;> rw [h] <;> nofun

/-- A message and a report: the lines of level ERROR are those of the client. -/
example : (errorTexts (PrintedUsb.run exDisplay exPrintedUsb [.write (.groupRead ⟨7, some "hall"⟩), .received (msgRepr
      [0x01, 0x13, 0x13, 0x00, 0x08, 0x00, 0x0B, 0x01, 0x03, 0, 0, 0x29, 0, 0xBC, 0xE0, 0x11, 0x0A, 0x0E, 0x8A, 1, 0, 0x81] ++ ['\n'])]).lines).length = 2 := by
  rw [exPrintedUsb, (c124_own exOrderOk rfl (by decide) (by decide) _).2]
  decide +kernel

/-- A message has its line when it was written. -/
example : ∃ own, (PrintedUsb.step exDisplay exPrintedUsb (.write (.groupRead ⟨7, some "hall"⟩))).lines =
      [] ++ shownLines (encodedLines (encodeMsg (.groupRead ⟨7, some "hall"⟩) (exState .usbHid)).1) ++ own ∧
    WrittenLine exDisplay (.groupRead ⟨7, some "hall"⟩) (encodeMsg (.groupRead ⟨7, some "hall"⟩) (exState .usbHid)).1 own := by
  obtain ⟨own, h1, h2⟩ := c124_write (v := exDisplay) (c := exPrintedUsb) exOrderOk (by decide) (by decide) (.groupRead ⟨7, some "hall"⟩)
  exact ⟨own, congrArg PrintedUsb.lines h1, h2⟩

end Knx
