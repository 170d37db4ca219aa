import Verif.Spec.UsbClient
import Verif.Props.Daemon
import Verif.Props.Individual
import Verif.Props.Encoder
import Verif.Props.Tunnelling

/-! # C65, C66: the USB client -/

namespace Knx
open Spec UsbClient

/-- On USB, what a report is decoded to depends on the tables only. -/
theorem report_tables (m : Msg) {s s' : State} (h : s.tables = s'.tables) :
    (reportIdDecode m s).1 = (reportIdDecode m s').1 := by
  unfold reportIdDecode
  rcases octect m with e1 | ⟨b1, m⟩ <;> simp only
  · rfl
  split_ifs
  swap
  · rfl
  unfold packetInfoDecode
  rcases octect m with e1 | ⟨b2, m⟩ <;> simp only
  · rfl
  split_ifs
  swap
  · rfl
  rcases octect m with e1 | ⟨b3, m⟩ <;> simp only
  · rfl
  generalize m.take b3.toNat = m
  unfold protocolVersionDecode
  rcases octect m with e1 | ⟨b4, m⟩ <;> simp only
  · rfl
  split_ifs
  swap
  · rfl
  unfold headerLengthDecode
  rcases octect m with e1 | ⟨b5, m⟩ <;> simp only
  · rfl
  split_ifs
  swap
  · rfl
  unfold bodyLengthDecode
  rcases short m with e1 | ⟨b6, m⟩ <;> simp only
  · rfl
  generalize m.take (b6 + 4) = m
  unfold protocolIdDecode
  rcases octect m with e1 | ⟨b7, m⟩ <;> simp only
  · rfl
  split_ifs
  · unfold emiIdDecode
    rcases octect m with e1 | ⟨b8, m⟩ <;> simp only
    · rfl
    split_ifs
    swap
    · rfl
    rcases short m with e1 | ⟨b9, m⟩ <;> simp only
    · rfl
    split_ifs
    · exact msgCode_tables _ h
    · rfl
  · rcases serviceDecode m with e1 | r <;> rfl
  · rfl

theorem usb_tables (m : Msg) {s s' : State} (hm : s.medium = .usbHid) (hm' : s'.medium = .usbHid)
    (h : s.tables = s'.tables) : (decodeMsg m s).1 = (decodeMsg m s').1 := by
  unfold decodeMsg
  rw [hm, hm']
  exact report_tables m h

/-- What the client keeps: everything its reading and writing depends on. -/
def Steady (s : State) (c : UsbClient) : Prop := c.state.medium = .usbHid ∧ SameSender s c.state

theorem decode_steady (d : Msg) {s s' : State} (hm : s'.medium = .usbHid) (h : SameSender s s') :
    (decodeMsg d s').2.medium = .usbHid ∧ SameSender s (decodeMsg d s').2 := by
  have he := report_ends d s'
  have hd : decodeMsg d s' = reportIdDecode d s' := by
    unfold decodeMsg
    rw [hm]
  rw [hd]
  generalize reportIdDecode d s' = x at he
  cases he <;> exact ⟨hm, h⟩

theorem readOne_steady (line : List Char) {s : State} {c : UsbClient} (h : Steady s c) : Steady s (c.readOne line) := by
  unfold readOne
  split_ifs
  · unfold usbReadLine
    simp only [Py.bind, Py.lift]
    rcases stringToOctets line.dropLast with e | m
    · exact h
    · simp only
      have := decode_steady m h.1 h.2
      generalize decodeMsg m c.state = x at this
      rcases x with ⟨e | r, s'⟩
      · exact this
      · cases r with
        | none => exact this
        | list l =>
          simp only [Py.bind, Py.lift]
          rcases formatOut l with e | u <;> exact this
        | tuple l =>
          simp only [Py.bind, Py.lift]
          rcases formatOut l with e | u <;> exact this
  · exact h

theorem foldl_steady (ls : List (List Char)) {s : State} {c : UsbClient} (h : Steady s c) :
    Steady s (ls.foldl readOne c) := by
  induction ls generalizing c with
  | nil => exact h
  | cons l ls ih => exact ih (readOne_steady l h)

theorem usbWriteLine_eq (m : InMsg) (s : State) : usbWriteLine m s =
    match encodeMsg m s with
    | (.error e, s') => (.error e, s')
    | (.ok f, s') => (.ok (msgRepr f ++ ['\n']), s') := by
  unfold usbWriteLine Py.bind
  rcases encodeMsg m s with ⟨e | f, s'⟩ <;> rfl

theorem write_steady (m : InMsg) {s : State} {c : UsbClient} (h : Steady s c) : Steady s (c.write m) := by
  have hs : ∀ w, Steady s { c with state := (encodeMsg m c.state).2, writing := w } := by
    intro w
    obtain ⟨a, b, t, r, hx, -⟩ := c37_frame m c.state
    unfold Steady
    rw [hx]
    exact h
  have hs' : ∀ w l, Steady s { c with state := (encodeMsg m c.state).2, writing := w, written := l } := fun w l => hs w
  unfold UsbClient.write
  rw [usbWriteLine_eq]
  split_ifs with hw
  · generalize encodeMsg m c.state = x at hs hs'
    rcases x with ⟨e | f, s'⟩
    · exact hs false
    · simp only
      rcases Client.formatIn m with e | u
      · exact hs' false _
      · exact hs' c.writing _
  · exact h

theorem step_steady (e : UsbClient.Event) {s : State} {c : UsbClient} (h : Steady s c) : Steady s (UsbClient.step c e) := by
  cases e with
  | received text => exact foldl_steady (splitLines [] (c.buffer ++ text)).1 h
  | closed => exact readOne_steady [] (readOne_steady c.buffer h)
  | write m => exact write_steady m h
  | finish =>
    change Steady s c.finish
    unfold UsbClient.finish
    split_ifs <;> exact h

/-! ## Lines -/

theorem splitLines_line {line : List Char} (h : '\n' ∉ line) (acc rest : List Char) :
    splitLines acc (line ++ '\n' :: rest) =
      ((acc.reverse ++ line ++ ['\n']) :: (splitLines [] rest).1, (splitLines [] rest).2) := by
  induction line generalizing acc with
  | nil => simp [splitLines]
  | cons c l ih =>
    simp only [List.mem_cons, not_or] at h
    simp only [List.cons_append, splitLines]
    rw [if_neg (fun hc => h.1 hc.symm), ih h.2]
    simp

theorem splitLines_rest {rest : List Char} (h : '\n' ∉ rest) (acc : List Char) :
    splitLines acc rest = ([], acc.reverse ++ rest) := by
  induction rest generalizing acc with
  | nil => simp [splitLines]
  | cons c l ih =>
    simp only [List.mem_cons, not_or] at h
    simp only [splitLines]
    rw [if_neg (fun hc => h.1 hc.symm), ih h.2]
    simp

theorem splitLines_acc {a : List Char} (h : '\n' ∉ a) (acc b : List Char) :
    splitLines acc (a ++ b) = splitLines (a.reverse ++ acc) b := by
  induction a generalizing acc with
  | nil => rfl
  | cons c l ih =>
    simp only [List.mem_cons, not_or] at h
    simp only [List.cons_append, splitLines]
    rw [if_neg (fun hc => h.1 hc.symm), ih h.2]
    simp

/-- Splitting piece by piece finds the same lines as splitting the whole text. -/
theorem splitLines_append (a b : List Char) {acc : List Char} (h : '\n' ∉ acc) :
    splitLines acc (a ++ b) = ((splitLines acc a).1 ++ (splitLines [] ((splitLines acc a).2 ++ b)).1,
      (splitLines [] ((splitLines acc a).2 ++ b)).2) := by
  induction a generalizing acc with
  | nil =>
    simp only [List.nil_append, splitLines]
    rw [splitLines_acc (by simpa using h), List.reverse_reverse, List.append_nil]
  | cons c a ih =>
    simp only [List.cons_append, splitLines]
    split_ifs with hc
    · rw [ih (by simp)]
      simp
    · exact ih (by simp [h, Ne.symm hc])

theorem splitLines_clean (a : List Char) {acc : List Char} (h : '\n' ∉ acc) : '\n' ∉ (splitLines acc a).2 := by
  induction a generalizing acc with
  | nil => simpa [splitLines] using h
  | cons c a ih =>
    simp only [splitLines]
    split_ifs with hc
    · exact ih (acc := []) (by simp)
    · exact ih (by simp [h, Ne.symm hc])

theorem readOne_buffer (c : UsbClient) (line b : List Char) :
    ({ c with buffer := b } : UsbClient).readOne line = { c.readOne line with buffer := b } := by
  unfold readOne
  simp only
  split_ifs
  · rcases usbReadLine line c.state with ⟨e | r, s⟩ <;> rfl
  · rfl

theorem foldl_buffer (ls : List (List Char)) (c : UsbClient) (b : List Char) :
    ls.foldl readOne { c with buffer := b } = { ls.foldl readOne c with buffer := b } := by
  induction ls generalizing c with
  | nil => rfl
  | cons l ls ih => rw [List.foldl_cons, readOne_buffer, ih, List.foldl_cons]

/-- Only the lines matter, not the pieces they come in. -/
theorem received_append (c : UsbClient) (h : '\n' ∉ c.buffer) (a b : List Char) :
    (c.received a).received b = c.received (a ++ b) := by
  unfold UsbClient.received
  rw [← List.append_assoc, splitLines_append (c.buffer ++ a) b (acc := []) (by simp)]
  simp only
  rw [foldl_buffer, List.foldl_append]

/-! ## C65 -/

/-- The line writes the octets. -/
def IsLine (d : Msg) (line : List Char) : Prop := ∃ x, HexText x d ∧ line = x ++ ['\n']

theorem hexText_clean {x : List Char} {d : Msg} (h : HexText x d) : '\n' ∉ x := by
  intro hn
  exact absurd (hexText_digits h _ hn) (by decide)

theorem splitLines_hexLines {ds : List Msg} {t : List Char} (h : HexLines ds t) {rest : List Char} (hr : '\n' ∉ rest) :
    List.Forall₂ IsLine ds (splitLines [] (t ++ rest)).1 ∧ (splitLines [] (t ++ rest)).2 = rest := by
  induction ds generalizing t with
  | nil =>
    subst h
    rw [List.nil_append, splitLines_rest hr]
    exact ⟨.nil, rfl⟩
  | cons d ds ih =>
    obtain ⟨line, t', h1, rfl, h3⟩ := h
    rw [List.append_assoc, List.cons_append, splitLines_line (hexText_clean h1)]
    exact ⟨.cons ⟨line, h1, by simp⟩ (ih h3).1, (ih h3).2⟩

theorem readable_steady {s : State} {c : UsbClient} (h : Steady s c) {d : Msg} {r : Res} (hr : Readable s d r) :
    Readable c.state d r := by
  refine ⟨?_, hr.2⟩
  rw [← hr.1]
  refine usb_tables d h.1 (h.2.1.trans h.1) ?_
  unfold State.tables
  rw [h.2.2.1, h.2.2.2.1]

theorem shown_iff (r : Res) : Shown r ↔ ∀ k a x d, OutMsg.group k a x d ∈ messages r → ∃ text, d.repr = .ok text := by
  have key : ∀ d : Dpt, Displayable d ↔ ∃ text, d.repr = .ok text := by
    intro d
    rw [repr_eq]
    by_cases h : Displayable d <;> simp [h]
  unfold Shown
  simp only [key]

theorem readOne_ok {c : UsbClient} (hc : c.reading = true) {d : Msg} {line : List Char} (hl : IsLine d line) {r : Res}
    (hr : Readable c.state d r) : (c.readOne line).reading = true ∧ (c.readOne line).seen = c.seen ++ [r] ∧
      (c.readOne line).buffer = c.buffer ∧ (c.readOne line).writing = c.writing ∧ (c.readOne line).written = c.written := by
  obtain ⟨x, h1, rfl⟩ := hl
  have h2 := ((usbReadLine_report h1 c.state).2 r).2 ⟨hr.1, (shown_iff r).1 hr.2⟩
  unfold readOne
  rw [if_pos hc]
  rcases hx : usbReadLine (x ++ ['\n']) c.state with ⟨e | r', s'⟩ <;> rw [hx] at h2 <;> cases h2
  exact ⟨hc, rfl, rfl, rfl, rfl⟩

theorem foldl_ok {s : State} {c : UsbClient} (h : Steady s c) (hc : c.reading = true) {ds : List Msg}
    {ls : List (List Char)} (hl : List.Forall₂ IsLine ds ls) {rs : List Res} (hr : List.Forall₂ (Readable s) ds rs) :
    (ls.foldl readOne c).reading = true ∧ (ls.foldl readOne c).seen = c.seen ++ rs ∧
    (ls.foldl readOne c).writing = c.writing ∧ (ls.foldl readOne c).written = c.written := by
  induction hl generalizing c rs with
  | nil => cases hr; exact ⟨hc, (List.append_nil _).symm, rfl, rfl⟩
  | cons h1 h2 ih =>
    cases hr with
    | cons h3 h4 =>
      obtain ⟨k1, k2, -, k4, k5⟩ := readOne_ok hc h1 (readable_steady h h3)
      obtain ⟨j1, j2, j3, j4⟩ := ih (readOne_steady _ h) k1 h4
      rw [List.foldl_cons]
      exact ⟨j1, by rw [j2, k2, List.append_assoc]; rfl, j3.trans k4, j4.trans k5⟩

theorem write_reading (c : UsbClient) (m : InMsg) : (c.write m).reading = c.reading ∧ (c.write m).seen = c.seen ∧
    (c.write m).buffer = c.buffer := by
  unfold UsbClient.write
  split_ifs
  · rcases usbWriteLine m c.state with ⟨e | l, s⟩
    · exact ⟨rfl, rfl, rfl⟩
    · simp only
      rcases Client.formatIn m with e | u <;> exact ⟨rfl, rfl, rfl⟩
  · exact ⟨rfl, rfl, rfl⟩

/-- What holds of C65: while the client is neither stopped nor disconnected, and whatever it writes meanwhile, it reads
exactly the complete lines received so far, in whatever pieces they came, and logs for each what its octets are decoded
to, provided every one of them decodes and can be displayed. Missing from the full claim: lines that do not
(`c65_refuted`). -/
theorem c65_partial {c : UsbClient} (hm : c.state.medium = .usbHid) (hr : c.reading = true) (hb : c.buffer = [])
    {es : List UsbClient.Event} (he : .closed ∉ es ∧ .finish ∉ es) {ds : List Msg} {t rest : List Char}
    (ht : textOf es = t ++ rest) (hl : HexLines ds t) (hrest : '\n' ∉ rest) {rs : List Res}
    (hd : List.Forall₂ (Readable c.state) ds rs) :
    (UsbClient.run c es).reading = true ∧ (UsbClient.run c es).seen = c.seen ++ rs := by
  have key : ∀ (es : List UsbClient.Event) (s : State) (c : UsbClient) (ds : List Msg) (rs : List Res), Steady s c →
      c.reading = true → '\n' ∉ c.buffer → .closed ∉ es ∧ .finish ∉ es →
      List.Forall₂ IsLine ds (splitLines [] (c.buffer ++ textOf es)).1 → List.Forall₂ (Readable s) ds rs →
      (UsbClient.run c es).reading = true ∧ (UsbClient.run c es).seen = c.seen ++ rs := by
    intro es
    induction es with
    | nil =>
      intro s c ds rs h hr hb he hl hd
      simp only [textOf, List.flatMap_nil, List.append_nil] at hl
      rw [splitLines_rest hb] at hl
      cases hl
      cases hd
      exact ⟨hr, (List.append_nil _).symm⟩
    | cons e es ih =>
      intro s c ds rs h hr hb he hl hd
      simp only [List.mem_cons, not_or] at he
      have he' : .closed ∉ es ∧ .finish ∉ es := ⟨he.1.2, he.2.2⟩
      cases e with
      | closed => exact absurd rfl he.1.1
      | finish => exact absurd rfl he.2.1
      | write m =>
        obtain ⟨h1, h2, h3⟩ := write_reading c m
        have := ih s (c.write m) ds rs (write_steady m h) (h1.trans hr) (by rw [h3]; exact hb) he' (by rw [h3]; exact hl) hd
        rw [h2] at this
        exact this
      | received text =>
        have hx : c.buffer ++ textOf (.received text :: es) = (c.buffer ++ text) ++ textOf es := by
          simp [textOf]
        rw [hx, splitLines_append _ _ (acc := []) (by simp)] at hl
        simp only at hl
        have l1 := List.forall₂_take_append _ _ _ hl
        have l2 := List.forall₂_drop_append _ _ _ hl
        generalize (splitLines [] (c.buffer ++ text)).1.length = n at l1 l2
        obtain ⟨k1, k2, -, -⟩ := foldl_ok h hr l1 (List.forall₂_take n hd)
        have := ih s (c.received text) (ds.drop n) (rs.drop n) (step_steady (.received text) h) k1
          (splitLines_clean (c.buffer ++ text) (acc := []) (by simp)) he' l2 (List.forall₂_drop n hd)
        refine ⟨this.1, this.2.trans ?_⟩
        change (List.foldl readOne c (splitLines [] (c.buffer ++ text)).1).seen ++ _ = _
        rw [k2, List.append_assoc, List.take_append_drop]
  refine key es c.state c ds rs ⟨hm, rfl, rfl, rfl, rfl, rfl⟩ hr (by rw [hb]; simp) he ?_ hd
  rw [hb, List.nil_append, ht]
  exact (splitLines_hexLines hl hrest).1

/-- A read task that has ended reads nothing any more. -/
theorem readOne_dead {c : UsbClient} (h : c.reading = false) (line : List Char) : c.readOne line = c := by
  unfold readOne
  rw [h, if_neg (by simp)]

theorem foldl_dead {c : UsbClient} (h : c.reading = false) (ls : List (List Char)) : ls.foldl readOne c = c := by
  induction ls with
  | nil => rfl
  | cons l ls ih => rw [List.foldl_cons, readOne_dead h, ih]

theorem run_dead {c : UsbClient} (h : c.reading = false) (es : List UsbClient.Event) :
    (UsbClient.run c es).reading = false ∧ (UsbClient.run c es).seen = c.seen := by
  induction es generalizing c with
  | nil => exact ⟨h, rfl⟩
  | cons e es ih =>
    have hs : (UsbClient.step c e).reading = false ∧ (UsbClient.step c e).seen = c.seen := by
      cases e with
      | received text =>
        change (List.foldl readOne c _).reading = false ∧ (List.foldl readOne c _).seen = c.seen
        rw [foldl_dead h]
        exact ⟨h, rfl⟩
      | closed =>
        change ((c.readOne _).readOne _).reading = false ∧ ((c.readOne _).readOne _).seen = c.seen
        rw [readOne_dead h, readOne_dead h]
        exact ⟨h, rfl⟩
      | write m => exact ⟨(write_reading c m).1.trans h, (write_reading c m).2.1⟩
      | finish =>
        change c.finish.reading = false ∧ c.finish.seen = c.seen
        unfold UsbClient.finish
        split_ifs
        · exact ⟨rfl, rfl⟩
        · exact ⟨h, rfl⟩
    have := ih hs.1
    exact ⟨this.1, this.2.trans hs.2⟩

/-- C65 is false: the first report that does not decode, or whose datapoints cannot be displayed, ends the reading for
good. Whatever is received after it, nothing is logged. -/
theorem c65_ends {c : UsbClient} (hb : c.buffer = []) {line : List Char} {d : Msg} (hl : HexText line d)
    (hd : ∀ r, ¬ Readable c.state d r) (es : List UsbClient.Event) :
    (UsbClient.run c (.received (line ++ ['\n']) :: es)).reading = false ∧
    (UsbClient.run c (.received (line ++ ['\n']) :: es)).seen = c.seen := by
  have h1 : c.received (line ++ ['\n']) = { c.readOne (line ++ ['\n']) with buffer := [] } := by
    unfold UsbClient.received
    rw [hb, List.nil_append, splitLines_line (hexText_clean hl)]
    rfl
  have h2 : (c.received (line ++ ['\n'])).reading = false ∧ (c.received (line ++ ['\n'])).seen = c.seen := by
    rw [h1]
    by_cases hr : c.reading
    · unfold readOne
      rw [if_pos hr]
      rcases hx : usbReadLine (line ++ ['\n']) c.state with ⟨e | r, s⟩
      · exact ⟨rfl, rfl⟩
      · obtain ⟨k1, k2⟩ := ((usbReadLine_report hl c.state).2 r).1 (by rw [hx])
        exact absurd ⟨k1, (shown_iff r).2 k2⟩ (hd r)
    · have hr : c.reading = false := by simpa using hr
      rw [readOne_dead hr]
      exact ⟨hr, rfl⟩
  have := run_dead h2.1 es
  exact ⟨this.1, this.2.trans h2.2⟩

/-- C65 is false of every client: any connection control telegram on the bus (a `T_Connect`, `T_Disconnect` or
acknowledgement between whatever devices) ends its reading for good. -/
theorem c65_refuted {c : UsbClient} (hm : c.state.medium = .usbHid) (hb : c.buffer = []) (k : Kind) (c1 c2 : Byte)
    (src dst : BitVec 16) (x : Byte) (padding : Msg) {line : List Char}
    (hl : HexText line (usbReport ([codeOf k, 0] ++ controlTelegram c1 c2 src dst x) ++ padding))
    (es : List UsbClient.Event) :
    (UsbClient.run c (.received (line ++ ['\n']) :: es)).reading = false ∧
    (UsbClient.run c (.received (line ++ ['\n']) :: es)).seen = c.seen := by
  refine c65_ends hb hl (fun r hr => ?_) es
  have := c57_raises k (info := []) (by decide) c1 c2 src dst x (s := c.state)
    (.usb padding hm (by simp [controlTelegram, octetsOf]))
  have h2 := hr.1
  simp only [List.append_nil, List.length_nil] at this
  rw [show (BitVec.ofNat 8 0 : Byte) = 0 from rfl] at this
  rw [this] at h2
  cases h2

theorem readOne_empty {c : UsbClient} (hm : c.state.medium = .usbHid) :
    (c.readOne []).reading = false ∧ (c.readOne []).seen = c.seen := by
  unfold readOne
  split_ifs with hr
  · have : usbReadLine [] c.state = (.error .indexError, c.state) := by
      have h1 : decodeMsg [] c.state = (.error .indexError, c.state) := by
        unfold decodeMsg
        rw [hm]
        rfl
      unfold usbReadLine
      simp only [Py.bind, Py.lift, List.dropLast_nil, show stringToOctets [] = .ok [] from rfl, h1]
    rw [this]
    exact ⟨rfl, rfl⟩
  · exact ⟨by simpa using hr, rfl⟩

/-- When the daemon closes the connection the reading ends, whatever is left of a line; nothing is logged if nothing is
left. -/
theorem c65_closed {c : UsbClient} (hm : c.state.medium = .usbHid) :
    (UsbClient.step c .closed).reading = false ∧ (c.buffer = [] → (UsbClient.step c .closed).seen = c.seen) := by
  have h1 : (c.readOne c.buffer).state.medium = .usbHid :=
    (readOne_steady c.buffer (s := c.state) ⟨hm, rfl, rfl, rfl, rfl, rfl⟩).1
  refine ⟨(readOne_empty h1).1, fun hb => (readOne_empty h1).2.trans ?_⟩
  rw [hb]
  exact (readOne_empty hm).2

theorem possibleAll_append {zx : Option Byte} {d : Daemon.Dmn} {es es' : List Daemon.Event}
    (h : Daemon.PossibleAll zx d (es ++ es')) : Daemon.PossibleAll zx d es := by
  induction es generalizing d with
  | nil => trivial
  | cons e es ih => exact ⟨h.1, ih h.2⟩

/-- A client stays in the table until it disconnects. -/
theorem inTable_step (zx : Option Byte) {d : Daemon.Dmn} {fd : Nat} (h : fd ∈ inTable d) {e : Daemon.Event}
    (hc : ∀ st, e ≠ .input fd none st ∧ e ≠ .input fd (some []) st) : fd ∈ inTable (Daemon.step zx d e) := by
  rcases e with f | data | ⟨f, x⟩
  · change fd ∈ List.filterMap id (Daemon.fillSlot f d.slots)
    by_cases hn : none ∈ d.slots
    · exact (fillSlot_free f hn).symm.subset (List.mem_cons_of_mem _ h)
    · rw [fillSlot_full f hn]
      exact h
  · exact h
  · rw [step_input]
    split_ifs with hx
    · exact h
    · change fd ∈ List.filterMap id (Daemon.clearSlot f d.slots)
      rw [clearSlot_erase]
      refine (List.mem_erase_of_ne ?_).2 h
      rintro rfl
      rw [not_and_or, not_not, not_not] at hx
      rcases hx with rfl | rfl
      · exact (hc _).1 rfl
      · exact (hc _).2 rfl

/-- The daemon's side of C65: from the moment a client is in the table until it disconnects, the texts sent to it are the
lines for the reports of the device, all of them, in order and once. -/
theorem c65_daemon (zx : Option Byte) {packet : List Byte} (hp : packet.length = Daemon.packetLen)
    {es es' : List Daemon.Event} (he : Daemon.PossibleAll zx (Daemon.init packet) (es ++ es')) {fd : Nat}
    (hf : fd ∈ inTable (Daemon.run zx (Daemon.init packet) es))
    (hc : ∀ st, .input fd none st ∉ es' ∧ .input fd (some []) st ∉ es') :
    ∃ new, (Daemon.run zx (Daemon.init packet) (es ++ es')).sent =
        (Daemon.run zx (Daemon.init packet) es).sent ++ new ∧
      HexLines (reportsOf es') ((new.filter fun p => p.1 = fd).flatMap (·.2)) := by
  induction es' generalizing es with
  | nil => exact ⟨[], by simp, rfl⟩
  | cons e es' ih =>
    simp only [List.mem_cons, not_or] at hc
    rw [List.append_cons] at he ⊢
    have he1 : Daemon.PossibleAll zx (Daemon.init packet) es := possibleAll_append (possibleAll_append he)
    have hr : Daemon.run zx (Daemon.init packet) (es ++ [e]) =
        Daemon.step zx (Daemon.run zx (Daemon.init packet) es) e := by
      unfold Daemon.run
      rw [List.foldl_append]
      rfl
    obtain ⟨new, h1, h2⟩ := ih he (by rw [hr]; exact inTable_step zx hf fun st => ⟨Ne.symm (hc st).1.1, Ne.symm (hc st).2.1⟩)
      fun st => ⟨(hc st).1.2, (hc st).2.2⟩
    have hother : (∀ data, e ≠ .report data) → ∃ new,
        (Daemon.run zx (Daemon.init packet) (es ++ [e] ++ es')).sent =
          (Daemon.run zx (Daemon.init packet) es).sent ++ new ∧
        HexLines (reportsOf (e :: es')) ((new.filter fun p => p.1 = fd).flatMap (·.2)) := by
      intro hn
      refine ⟨new, ?_, ?_⟩
      · rw [h1, hr, c51_only zx _ e hn]
      · rcases e with f | data | ⟨f, x⟩
        · exact h2
        · exact absurd rfl (hn data)
        · exact h2
    rcases e with f | data | ⟨f, x⟩
    · exact hother nofun
    swap
    · exact hother nofun
    obtain ⟨line, k1, -, k3⟩ := c51_broadcast zx hp he1 data
    refine ⟨(inTable (Daemon.run zx (Daemon.init packet) es)).map (fun fd => (fd, line ++ ['\n'])) ++ new, ?_, ?_⟩
    · rw [h1, k3, List.append_assoc]
    · have hone : ∀ l : List Nat, l.Nodup → fd ∈ l →
          (l.map fun fd => (fd, line ++ ['\n'])).filter (fun p => p.1 = fd) = [(fd, line ++ ['\n'])] := by
        intro l hl hm
        induction l with
        | nil => cases hm
        | cons a l ih =>
          rw [List.nodup_cons] at hl
          rw [List.map_cons, List.filter_cons]
          by_cases ha : a = fd
          · subst ha
            simp only [decide_true, if_true]
            congr 1
            rw [List.filter_eq_nil_iff]
            intro p hp
            obtain ⟨b, hb, rfl⟩ := List.mem_map.1 hp
            simp only [decide_eq_true_eq]
            rintro rfl
            exact hl.1 hb
          · simp only [ha, decide_false, Bool.false_eq_true, if_false]
            exact ih hl.2 ((List.mem_cons.1 hm).resolve_left (Ne.symm ha))
      rw [List.filter_append, hone _ (c51_table zx hp he1).1 hf]
      change HexLines (data :: reportsOf es') _
      exact ⟨line, (new.filter fun p => p.1 = fd).flatMap (·.2), k1, by simp, h2⟩

/-! ## C66 -/

theorem readOne_write (c : UsbClient) (line : List Char) :
    (c.readOne line).writing = c.writing ∧ (c.readOne line).written = c.written := by
  unfold readOne
  split_ifs
  · rcases usbReadLine line c.state with ⟨e | r, s⟩ <;> exact ⟨rfl, rfl⟩
  · exact ⟨rfl, rfl⟩

theorem foldl_write (ls : List (List Char)) (c : UsbClient) :
    (ls.foldl readOne c).writing = c.writing ∧ (ls.foldl readOne c).written = c.written := by
  induction ls generalizing c with
  | nil => exact ⟨rfl, rfl⟩
  | cons l ls ih =>
    rw [List.foldl_cons]
    exact ⟨(ih _).1.trans (readOne_write c l).1, (ih _).2.trans (readOne_write c l).2⟩

/-- A write task that has ended writes nothing any more and does not stop the client. -/
theorem run_mute {c : UsbClient} (h : c.writing = false) (es : List UsbClient.Event) :
    (UsbClient.run c es).writing = false ∧ (UsbClient.run c es).written = c.written ∧
    UsbClient.run c (es ++ [.finish]) = UsbClient.run c es := by
  have hrun : (UsbClient.run c es).writing = false ∧ (UsbClient.run c es).written = c.written := by
    induction es generalizing c with
    | nil => exact ⟨h, rfl⟩
    | cons e es ih =>
      have hs : (UsbClient.step c e).writing = false ∧ (UsbClient.step c e).written = c.written := by
        cases e with
        | received text =>
          exact ⟨(foldl_write (splitLines [] (c.buffer ++ text)).1 c).1.trans h, (foldl_write _ c).2⟩
        | closed =>
          obtain ⟨h1, h2⟩ := readOne_write c c.buffer
          obtain ⟨h3, h4⟩ := readOne_write (c.readOne c.buffer) []
          exact ⟨h3.trans (h1.trans h), h4.trans h2⟩
        | write m =>
          change (c.write m).writing = false ∧ (c.write m).written = c.written
          unfold UsbClient.write
          rw [h, if_neg (by simp)]
          exact ⟨h, rfl⟩
        | finish =>
          change c.finish.writing = false ∧ c.finish.written = c.written
          unfold UsbClient.finish
          rw [h, if_neg (by simp)]
          exact ⟨h, rfl⟩
      have := ih hs.1
      exact ⟨this.1, this.2.trans hs.2⟩
  refine ⟨hrun.1, hrun.2, ?_⟩
  have : UsbClient.run c (es ++ [.finish]) = (UsbClient.run c es).finish := by
    unfold UsbClient.run
    rw [List.foldl_append]
    rfl
  rw [this]
  unfold UsbClient.finish
  rw [hrun.1, if_neg (by simp)]

theorem hexText_upper {x : List Char} {f : Msg} (h : HexText x f) (hu : ∀ c ∈ x, c.isLower = false) : x = msgRepr f := by
  have key : ∀ p ∈ hexTable, p.1.isLower = false → p.1 = hexDigit p.2 := by decide
  induction f generalizing x with
  | nil =>
    rcases x with _ | ⟨c, _ | ⟨d, x⟩⟩
    · rfl
    · exact h.elim
    · exact h.elim
  | cons b f ih =>
    rcases x with _ | ⟨c, _ | ⟨d, x⟩⟩
    · exact h.elim
    · exact h.elim
    · obtain ⟨h1, h2, h3⟩ := h
      have k1 := key _ h1 (hu c (by simp))
      have k2 := key _ h2 (hu d (by simp))
      have k3 := ih h3 fun c hc => hu c (by simp [hc])
      simp only at k1 k2
      rw [k1, k2, k3]
      rfl

/-- What holds of C66: until it is stopped the client writes its messages in order, one line with the octets of each, whatever
it receives meanwhile and even if its reading has ended, and then stops, provided every message can be encoded and
displayed. Missing from the full claim: messages that cannot (`c66_refuted`, `c66_format_refuted`). -/
theorem c66_partial {c : UsbClient} (hm : c.state.medium = .usbHid) (hw : c.writing = true)
    {es : List UsbClient.Event} (he : .finish ∉ es) (ha : ∀ m ∈ messagesOf es, IsApplication m) {lines : List (List Char)}
    (hl : List.Forall₂ (Writable c.state) (messagesOf es) lines) :
    (UsbClient.run c es).writing = true ∧ (UsbClient.run c es).written = c.written ++ lines ∧
    (UsbClient.run c (es ++ [.finish])).reading = false := by
  have key : ∀ (es : List UsbClient.Event) (s : State) (c : UsbClient) (lines : List (List Char)), Steady s c →
      c.writing = true → .finish ∉ es → (∀ m ∈ messagesOf es, IsApplication m) →
      List.Forall₂ (Writable s) (messagesOf es) lines →
      (UsbClient.run c es).writing = true ∧ (UsbClient.run c es).written = c.written ++ lines := by
    intro es
    induction es with
    | nil =>
      intro s c lines h hw he ha hl
      cases hl
      exact ⟨hw, (List.append_nil _).symm⟩
    | cons e es ih =>
      intro s c lines h hw he ha hl
      simp only [List.mem_cons, not_or] at he
      cases e with
      | finish => exact absurd rfl he.1
      | received text =>
        obtain ⟨h1, h2⟩ := foldl_write (splitLines [] (c.buffer ++ text)).1 c
        have := ih s (c.received text) lines (step_steady (.received text) h) (h1.trans hw) he.2 ha hl
        exact ⟨this.1, this.2.trans (congrArg (· ++ lines) h2)⟩
      | closed =>
        obtain ⟨h1, h2⟩ := readOne_write c c.buffer
        obtain ⟨h3, h4⟩ := readOne_write (c.readOne c.buffer) []
        have := ih s c.closed lines (step_steady .closed h) (h3.trans (h1.trans hw)) he.2 ha hl
        exact ⟨this.1, this.2.trans (congrArg (· ++ lines) (h4.trans h2))⟩
      | write m =>
        change List.Forall₂ _ (m :: messagesOf es) lines at hl
        cases hl with
        | cons h1 h2 =>
          rename_i line lines
          obtain ⟨f, x, hf, hx, hup, rfl, u, hu⟩ := h1
          rw [hexText_upper hx hup]
          have hf : (encodeMsg m c.state).1 = .ok f :=
            (c37_determined h.2 (ha m List.mem_cons_self)).symm.trans hf
          have hw' : (c.write m).writing = true ∧ (c.write m).written = c.written ++ [msgRepr f ++ ['\n']] := by
            unfold UsbClient.write
            rw [if_pos hw, usbWriteLine_eq]
            rcases hy : encodeMsg m c.state with ⟨e | f', s'⟩ <;> rw [hy] at hf <;> cases hf
            simp only [hu]
            exact ⟨hw, trivial⟩
          have := ih s (c.write m) lines (write_steady m h) hw'.1 he.2 (fun m hm => ha m (List.mem_cons_of_mem _ hm)) h2
          refine ⟨this.1, this.2.trans ?_⟩
          rw [hw'.2, List.append_assoc]
          rfl
  have hk := key es c.state c lines ⟨hm, rfl, rfl, rfl, rfl, rfl⟩ hw he ha hl
  refine ⟨hk.1, hk.2, ?_⟩
  have : UsbClient.run c (es ++ [.finish]) = (UsbClient.run c es).finish := by
    unfold UsbClient.run
    rw [List.foldl_append]
    rfl
  rw [this]
  unfold UsbClient.finish
  rw [if_pos hk.1]

/-- C66 is false: a message that cannot be encoded ends the writing for good. None of the later messages is written, and
the client never stops. -/
theorem c66_refuted {c : UsbClient} {m : InMsg} {e : Err} (hm : (encodeMsg m c.state).1 = .error e)
    (es : List UsbClient.Event) : (UsbClient.run c (.write m :: es)).written = c.written ∧
    UsbClient.run c (.write m :: es ++ [.finish]) = UsbClient.run c (.write m :: es) := by
  have hs : (c.write m).writing = false ∧ (c.write m).written = c.written := by
    unfold UsbClient.write
    split_ifs with hw
    · rw [usbWriteLine_eq]
      rcases hy : encodeMsg m c.state with ⟨e | f, s'⟩ <;> rw [hy] at hm <;> cases hm
      exact ⟨rfl, rfl⟩
    · exact ⟨by simpa using hw, rfl⟩
  obtain ⟨-, h1, h2⟩ := run_mute hs.1 es
  exact ⟨h1.trans hs.2, h2⟩

/-- C66 is false: a message that cannot be displayed is written, but none of the later ones is. -/
theorem c66_format_refuted {c : UsbClient} (hw : c.writing = true) {m : InMsg} {f : Msg} (hm : (encodeMsg m c.state).1 = .ok f)
    {e : Err} (hf : Client.formatIn m = .error e) (es : List UsbClient.Event) :
    (∃ line, HexText line f ∧ (UsbClient.run c (.write m :: es)).written = c.written ++ [line ++ ['\n']]) ∧
    UsbClient.run c (.write m :: es ++ [.finish]) = UsbClient.run c (.write m :: es) := by
  have hs : (c.write m).writing = false ∧ (c.write m).written = c.written ++ [msgRepr f ++ ['\n']] := by
    unfold UsbClient.write
    rw [if_pos hw, usbWriteLine_eq]
    rcases hy : encodeMsg m c.state with ⟨e | f, s'⟩ <;> rw [hy] at hm <;> cases hm
    simp only [hf]
    exact ⟨trivial, trivial⟩
  obtain ⟨-, h1, h2⟩ := run_mute hs.1 es
  exact ⟨⟨_, hexText_msgRepr f, h1.trans hs.2⟩, h2⟩

/-! ## Examples -/

def exUsb : UsbClient := { state := exState .usbHid }

/-- A write of 0x0C65 as a report of the device. -/
def exReport : Msg := usbReport (cemi 0x29 [] exTelegram)

theorem exReport_readable : Readable (exState .usbHid) exReport (.list [.group .write .ind ⟨3, none⟩ ⟨.switch, 0x65⟩,
    .group .write .ind ⟨7, none⟩ ⟨.float16, 0x0C65⟩]) :=
  ⟨by decide +kernel, fun k a x d h => by
    simp only [messages, List.mem_cons, OutMsg.group.injEq, List.not_mem_nil, or_false] at h
    obtain ⟨-, -, -, rfl⟩ | ⟨-, -, -, rfl⟩ := h <;> decide⟩

/-- Two reports, cut in the middle of a line, with a message written in between. -/
example (line : List Char) (hl : HexText line exReport) (rest : List Char) (hr : '\n' ∉ rest) :
    (UsbClient.run exUsb [.received (line ++ '\n' :: line.take 7), .write (.groupRead ⟨7, none⟩),
      .received (line.drop 7 ++ '\n' :: rest)]).seen.length = 2 := by
  have h := (c65_partial (c := exUsb) rfl rfl rfl (es := [.received (line ++ '\n' :: line.take 7), .write (.groupRead ⟨7, none⟩),
    .received (line.drop 7 ++ '\n' :: rest)]) ⟨by simp, by simp⟩ (ds := [exReport, exReport])
    (t := line ++ '\n' :: (line ++ ['\n'])) (rest := rest) (by
      simp only [textOf, List.flatMap_cons, List.flatMap_nil, List.append_assoc, List.cons_append, List.nil_append, List.append_nil]
      rw [← List.append_assoc (line.take 7), List.take_append_drop])
    ⟨line, _, hl, rfl, line, [], hl, rfl, rfl⟩ hr (.cons exReport_readable (.cons exReport_readable .nil))).2
  rw [h]
  rfl

/-- An acknowledgement between two other devices ends the reading; the report after it is not seen. -/
example (line line' : List Char)
    (hl : HexText line (usbReport ([0x29, 0] ++ controlTelegram 0xB0 0x60 0x1105 0x1106 0xC2) ++ [0, 0])) :
    (UsbClient.run exUsb [.received (line ++ ['\n']), .received (line' ++ ['\n'])]).seen = [] :=
  (c65_refuted (c := exUsb) rfl rfl .ind 0xB0 0x60 0x1105 0x1106 0xC2 [0, 0] hl [.received (line' ++ ['\n'])]).2

/-- An undefined operating mode does too. -/
example (line : List Char) (hl : HexText line (exReport.take 12)) :
    (UsbClient.run exUsb [.received (line ++ ['\n']), .closed]).seen = [] :=
  (c65_ends (c := exUsb) rfl hl (fun r h => by
    have h2 : (decodeMsg (exReport.take 12) (exState .usbHid)).1 = .error .indexError := by decide +kernel
    have h3 := h.1
    rw [show exUsb.state = exState .usbHid from rfl, h2] at h3
    cases h3) [.closed]).2

example : (UsbClient.step exUsb .closed).reading = false := (c65_closed rfl).1

/-- Three reports, of which the client was connected for the last two. -/
example : ∃ new, (Daemon.run none (Daemon.init (List.replicate 56 0))
      ([.report [9], .accept 4, .accept 5] ++ [.report [1, 2], .input 5 none [], .input 4 (some ['\n']) ['0'], .report [3]])).sent =
        [] ++ new ∧
    HexLines [[1, 2], [3]] ((new.filter fun p => p.1 = 4).flatMap (·.2)) :=
  c65_daemon none (packet := List.replicate 56 0) (by decide) (es := [.report [9], .accept 4, .accept 5])
    (es' := [.report [1, 2], .input 5 none [], .input 4 (some ['\n']) ['0'], .report [3]]) (by decide) (by decide) (by simp)

example : (UsbClient.run exUsb [.write (.groupRead ⟨7, none⟩), .closed, .write (.groupRead ⟨7, none⟩)]).written =
    [] ++ List.replicate 2 "0113130008000B01030000110096E000000E89010000\n".toList := by
  have hw : Writable exUsb.state (.groupRead ⟨7, none⟩) "0113130008000B01030000110096E000000E89010000\n".toList :=
    ⟨[1, 0x13, 0x13, 0, 8, 0, 0x0B, 1, 3, 0, 0, 0x11, 0, 0x96, 0xE0, 0, 0, 0x0E, 0x89, 1, 0, 0],
      "0113130008000B01030000110096E000000E89010000".toList, by decide +kernel, by decide, by decide, rfl, (), rfl⟩
  exact (c66_partial (c := exUsb) rfl rfl
    (es := [.write (.groupRead ⟨7, none⟩), .closed, .write (.groupRead ⟨7, none⟩)]) (by simp) (fun m hm => by
    simp only [messagesOf, List.flatMap_cons, List.flatMap_nil, List.append_nil, List.nil_append, List.cons_append,
      List.mem_cons, List.not_mem_nil, or_self, or_false] at hm
    subst hm
    trivial) (.cons hw (.cons hw .nil))).2.1

/-- A message for an unknown object: the second message is never written. -/
example : (UsbClient.run exUsb [.write (.groupRead ⟨99, none⟩), .write (.groupRead ⟨7, none⟩)]).written = [] :=
  (c66_refuted (c := exUsb) (m := .groupRead ⟨99, none⟩) (e := .keyError) (by decide +kernel)
    [.write (.groupRead ⟨7, none⟩)]).1

/-- An undefined operating mode is written, but ends the writing. -/
example : UsbClient.run exUsb [.write (.groupWriteReq ⟨7, none⟩ ⟨.setupClima, 9 * 2 ^ 24⟩), .write (.groupRead ⟨7, none⟩), .finish] =
    UsbClient.run exUsb [.write (.groupWriteReq ⟨7, none⟩ ⟨.setupClima, 9 * 2 ^ 24⟩), .write (.groupRead ⟨7, none⟩)] :=
  (c66_format_refuted (c := exUsb) rfl (m := .groupWriteReq ⟨7, none⟩ ⟨.setupClima, 9 * 2 ^ 24⟩)
    (f := [1, 0x13, 0x15, 0, 8, 0, 0x0D, 1, 3, 0, 0, 0x11, 0, 0x96, 0xE0, 0, 0, 0x0E, 0x89, 3, 0, 0x80, 0, 0])
    (by decide +kernel) (e := .valueError) (by decide) [.write (.groupRead ⟨7, none⟩)]).2

end Knx
