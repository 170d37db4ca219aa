import Verif.Props.LogTexts
import Verif.Props.UsbClient
import Verif.Spec.UsbLog

/-! # C118: the log of the USB client -/

namespace Knx
open Spec

theorem res_text {fr : PyFloat → List Char} {order : DptClass → List DptProp} {r : Res} {t : List Char}
    (h : r.text fr order = .ok t) : ShowsRead fr order r ("read ".toList ++ t) := by
  have key : ∀ l, listText fr order l = .ok t →
      ∃ ts, List.Forall₂ (fun (m : OutMsg) t => m.text fr order = .ok t) l ts ∧
        "read ".toList ++ t = fill "read [{}]".toList [sepBy ", " ts] := by
    intro l h
    have hl : ∀ l : List OutMsg, ∀ x, listItems fr order l = .ok x →
        ∃ ts, List.Forall₂ (fun m t => m.text fr order = .ok t) l ts := by
      intro l
      induction l with
      | nil => exact fun _ _ => ⟨[], .nil⟩
      | cons m l ih =>
        intro x hx
        cases hm : m.text fr order with
        | error e =>
          cases l with
          | nil => rw [listItems_one, hm] at hx; cases hx
          | cons m2 l => rw [listItems_more, hm] at hx; cases hx
        | ok u =>
          cases l with
          | nil => exact ⟨[u], .cons hm .nil⟩
          | cons m2 l =>
            rw [listItems_more, hm] at hx
            cases hy : listItems fr order (m2 :: l) with
            | error e => rw [hy] at hx; cases hx
            | ok y =>
              obtain ⟨ts, hts⟩ := ih y hy
              exact ⟨u :: ts, .cons hm hts⟩
    unfold listText at h
    cases hx : listItems fr order l with
    | error e => rw [hx] at h; cases h
    | ok x =>
      obtain ⟨ts, hts⟩ := hl l x hx
      have h2 := c114_list fr order hts
      unfold listText at h2
      rw [h] at h2
      refine ⟨ts, hts, ?_⟩
      cases h2
      have e1 := fill_pieces "[{}]" [sepBy ", " ts] "[".toList ["]".toList] (by decide +kernel) (by decide +kernel) rfl
      have e2 := fill_pieces "read [{}]" [sepBy ", " ts] ("read ".toList ++ "[".toList) ["]".toList] (by decide +kernel)
        (by decide +kernel) rfl
      rw [e1, e2, List.append_assoc]
  cases r with
  | none =>
    cases h
    show _ = "read None".toList
    decide +kernel
  | list l => exact key l h
  | tuple l => exact key l h

/-- What one line of the daemon adds. -/
theorem usb_one (fr : PyFloat → List Char) {order : DptClass → List DptProp} (ho : OrderOk order) (c : LoggedUsb) (line : List Char) :
    (LoggedUsb.readOne fr order c line).usb = c.usb.readOne line ∧
    ∃ rs ls, (c.usb.readOne line).seen = c.usb.seen ++ rs ∧ (LoggedUsb.readOne fr order c line).log = c.log ++ ls ∧
      List.Forall₂ (ShowsRead fr order) rs ls ∧ ∀ l ∈ ls, l.head? = some 'r' := by
  unfold LoggedUsb.readOne UsbClient.readOne usbReadLine
  have hr : (c.usb.seen = c.usb.seen ++ []) ∧ c.log = c.log ++ [] ∧ List.Forall₂ (ShowsRead fr order) [] [] ∧
      ∀ l ∈ ([] : List (List Char)), l.head? = some 'r' := ⟨by simp, by simp, .nil, by simp⟩
  split_ifs with h
  · simp only [Py.bind, Py.lift]
    cases stringToOctets line.dropLast with
    | error e => exact ⟨rfl, [], [], hr⟩
    | ok msg =>
      simp only
      rcases decodeMsg msg c.usb.state with ⟨e | r, s⟩
      · exact ⟨rfl, [], [], hr⟩
      · have hf : ∀ l, formatOut l = match listText fr order l with
            | .ok _ => .ok ()
            | .error e => .error e := c89_format fr ho
        simp only
        cases ht : r.text fr order with
        | error e =>
          cases r with
          | none => cases ht
          | list l | tuple l =>
            have ht : listText fr order l = .error e := ht
            simp only [hf, ht]
            exact ⟨rfl, [], [], hr⟩
        | ok t =>
          refine ⟨?_, [r], ["read ".toList ++ t], ?_, rfl, .cons (res_text ht) .nil, by simp⟩
          all_goals
            cases r with
            | none => rfl
            | list l | tuple l =>
              have ht : listText fr order l = .ok t := ht
              simp only [hf, ht]
              rfl
  · exact ⟨rfl, [], [], hr⟩

/-- What is read leaves alone what is written. -/
theorem usb_lines (fr : PyFloat → List Char) {order : DptClass → List DptProp} (ho : OrderOk order) (lines : List (List Char))
    (c : LoggedUsb) :
    (lines.foldl (LoggedUsb.readOne fr order) c).usb = lines.foldl UsbClient.readOne c.usb ∧
    ∃ rs ls, (lines.foldl UsbClient.readOne c.usb).seen = c.usb.seen ++ rs ∧
      (lines.foldl (LoggedUsb.readOne fr order) c).log = c.log ++ ls ∧
      List.Forall₂ (ShowsRead fr order) rs ls ∧ ∀ l ∈ ls, l.head? = some 'r' := by
  induction lines generalizing c with
  | nil => exact ⟨rfl, [], [], by simp, by simp, .nil, by simp⟩
  | cons line lines ih =>
    obtain ⟨h1, rs, ls, h2, h3, h4, h5⟩ := usb_one fr ho c line
    obtain ⟨h1', rs', ls', h2', h3', h4', h5'⟩ := ih (LoggedUsb.readOne fr order c line)
    rw [h1] at h1' h2'
    refine ⟨h1', rs ++ rs', ls ++ ls', ?_, ?_, List.rel_append h4 h4', ?_⟩
    · rw [List.foldl_cons, h2', h2, List.append_assoc]
    · rw [List.foldl_cons, h3', h3, List.append_assoc]
    · intro l hl
      rcases List.mem_append.1 hl with hl | hl
      exacts [h5 l hl, h5' l hl]

theorem one_keeps (c : UsbClient) (line : List Char) :
    (c.readOne line).written = c.written ∧ (c.readOne line).writing = c.writing := by
  unfold UsbClient.readOne
  split_ifs
  · rcases usbReadLine line c.state with ⟨e | r, s⟩ <;> exact ⟨rfl, rfl⟩
  · exact ⟨rfl, rfl⟩

theorem lines_keep (lines : List (List Char)) (c : UsbClient) :
    (lines.foldl UsbClient.readOne c).written = c.written ∧ (lines.foldl UsbClient.readOne c).writing = c.writing := by
  induction lines generalizing c with
  | nil => exact ⟨rfl, rfl⟩
  | cons line lines ih =>
    rw [List.foldl_cons, (ih _).1, (ih _).2]
    exact one_keeps c line

/-- An event that is no write. -/
theorem usb_reads (fr : PyFloat → List Char) {order : DptClass → List DptProp} (ho : OrderOk order) (c : LoggedUsb)
    {e : UsbClient.Event} (he : ∀ m, e ≠ .write m) :
    (LoggedUsb.step fr order c e).usb = UsbClient.step c.usb e ∧
    (UsbClient.step c.usb e).written = c.usb.written ∧ ((UsbClient.step c.usb e).writing = true → c.usb.writing = true) ∧
    ∃ rs ls, (UsbClient.step c.usb e).seen = c.usb.seen ++ rs ∧ (LoggedUsb.step fr order c e).log = c.log ++ ls ∧
      List.Forall₂ (ShowsRead fr order) rs ls ∧ ∀ l ∈ ls, l.head? = some 'r' := by
  cases e with
  | received text =>
    obtain ⟨h1, rs, ls, h2, h3, h4, h5⟩ := usb_lines fr ho (UsbClient.splitLines [] (c.usb.buffer ++ text)).1 c
    obtain ⟨h6, h7⟩ := lines_keep (UsbClient.splitLines [] (c.usb.buffer ++ text)).1 c.usb
    refine ⟨?_, h6, fun h => ?_, rs, ls, h2, h3, h4, h5⟩
    · simp only [LoggedUsb.step, UsbClient.step, LoggedUsb.received, UsbClient.received, h1]
    · exact h7.symm.trans h
  | closed =>
    obtain ⟨h1, rs, ls, h2, h3, h4, h5⟩ := usb_lines fr ho [c.usb.buffer, []] c
    obtain ⟨h6, h7⟩ := lines_keep [c.usb.buffer, []] c.usb
    simp only [List.foldl_cons, List.foldl_nil] at h1 h2 h3 h6 h7
    refine ⟨?_, h6, fun h => ?_, rs, ls, h2, h3, h4, h5⟩
    · simp only [LoggedUsb.step, UsbClient.step, LoggedUsb.closed, UsbClient.closed, h1]
    · exact h7.symm.trans h
  | write m => exact absurd rfl (he m)
  | finish =>
    refine ⟨rfl, ?_, ?_, [], [], ?_, by simp [LoggedUsb.step], .nil, by simp⟩
    all_goals
      simp only [UsbClient.step, UsbClient.finish]
      split_ifs with h <;> simp [h]

/-- What a write adds. -/
theorem usb_write (fr : PyFloat → List Char) {order : DptClass → List DptProp} (ho : OrderOk order) (c : LoggedUsb) (m : InMsg) :
    (LoggedUsb.step fr order c (.write m)).usb = UsbClient.step c.usb (.write m) ∧
    (UsbClient.step c.usb (.write m)).seen = c.usb.seen ∧
    ((c.usb.writing = false ∧ UsbClient.step c.usb (.write m) = c.usb ∧ LoggedUsb.step fr order c (.write m) = c) ∨
      ((UsbClient.step c.usb (.write m)).writing = false ∧ (UsbClient.step c.usb (.write m)).written = c.usb.written ∧
        (LoggedUsb.step fr order c (.write m)).log = c.log) ∨
      (∃ f, (UsbClient.step c.usb (.write m)).written = c.usb.written ++ [f] ∧ WritesFrame m f ∧
        ((UsbClient.step c.usb (.write m)).writing = false ∧ (LoggedUsb.step fr order c (.write m)).log = c.log ∧
            (∀ t, m.text fr order ≠ .ok t) ∨
          ∃ t, m.text fr order = .ok t ∧
            (LoggedUsb.step fr order c (.write m)).log = c.log ++ ["written ".toList ++ t]))) := by
  simp only [LoggedUsb.step, UsbClient.step, LoggedUsb.write, UsbClient.write]
  by_cases hw : c.usb.writing = true
  · simp only [hw, if_true, usbWriteLine_eq]
    rcases hx : encodeMsg m c.usb.state with ⟨e | f, s⟩
    · exact ⟨rfl, rfl, .inr (.inl ⟨rfl, rfl, rfl⟩)⟩
    · have hwf : WritesFrame m (msgRepr f ++ ['\n']) :=
        ⟨c.usb.state, f, by rw [hx], msgRepr f, hexText_msgRepr f, rfl⟩
      have hform : (∃ t, m.text fr order = .ok t ∧ Client.formatIn m = .ok ()) ∨
          ∃ e, m.text fr order = .error e ∧ Client.formatIn m = .error e := by
        have hg : ∀ a d, (∃ t, (InMsg.groupWriteReq a d).text fr order = .ok t ∧ d.repr = .ok ()) ∨
            ∃ e, (InMsg.groupWriteReq a d).text fr order = .error e ∧ d.repr = .error e := by
          intro a d
          rw [c114_sent]
          simp only [datapointIn]
          rcases text_repr fr ho d with ⟨t, h1, h2⟩ | ⟨h1, h2⟩
          · rw [h1]; exact .inl ⟨_, rfl, h2⟩
          · rw [h1]; exact .inr ⟨_, rfl, h2⟩
        have hg' : ∀ a d, (∃ t, (InMsg.groupWriteInd a d).text fr order = .ok t ∧ d.repr = .ok ()) ∨
            ∃ e, (InMsg.groupWriteInd a d).text fr order = .error e ∧ d.repr = .error e := by
          intro a d
          rw [c114_sent]
          simp only [datapointIn]
          rcases text_repr fr ho d with ⟨t, h1, h2⟩ | ⟨h1, h2⟩
          · rw [h1]; exact .inl ⟨_, rfl, h2⟩
          · rw [h1]; exact .inr ⟨_, rfl, h2⟩
        cases m with
        | groupWriteReq a d => exact hg a d
        | groupWriteInd a d => exact hg' a d
        | _ => exact .inl ⟨_, rfl, rfl⟩
      rcases hform with ⟨t, h1, h2⟩ | ⟨e, h1, h2⟩
      · simp only [h1, h2]
        exact ⟨trivial, trivial, .inr (.inr ⟨_, rfl, hwf, .inr ⟨t, rfl, rfl⟩⟩)⟩
      · simp only [h1, h2]
        exact ⟨trivial, trivial, .inr (.inr ⟨_, rfl, hwf, .inl ⟨trivial, trivial, fun t h => by cases h⟩⟩)⟩
  · rw [Bool.not_eq_true] at hw
    simp [hw]

theorem lines_read {ls : List (List Char)} (h : ∀ l ∈ ls, l.head? = some 'r') : readLines ls = ls ∧ writtenLines ls = [] := by
  constructor
  · exact List.filter_eq_self.2 fun l hl => by rw [h l hl]; rfl
  · exact List.filter_eq_nil_iff.2 fun l hl => by rw [h l hl]; decide

/-- C118: what the client logs. The lines about what was read show, one each, the results of the reports it decoded, in order; the
lines about what was written show the first messages, in order; each of these was sent, and at most one more, which is a message
that has no text. There are no other lines. -/
theorem c118_log (fr : PyFloat → List Char) {order : DptClass → List DptProp} (ho : OrderOk order) (c : LoggedUsb)
    (es : List UsbClient.Event) :
    (LoggedUsb.run fr order c es).usb = UsbClient.run c.usb es ∧
    ∃ new, (LoggedUsb.run fr order c es).log = c.log ++ new ∧ (∀ l ∈ new, l.head? = some 'r' ∨ l.head? = some 'w') ∧
      (∃ rs, (UsbClient.run c.usb es).seen = c.usb.seen ++ rs ∧ List.Forall₂ (ShowsRead fr order) rs (readLines new)) ∧
      ∃ n k frames, (UsbClient.run c.usb es).written = c.usb.written ++ frames ∧
        List.Forall₂ WritesFrame ((messagesOf es).take n) frames ∧
        List.Forall₂ (ShowsWritten fr order) ((messagesOf es).take k) (writtenLines new) ∧
        (n = k ∨ n = k + 1 ∧ ∃ m, (messagesOf es)[k]? = some m ∧ ∀ t, m.text fr order ≠ .ok t) ∧
        (c.usb.writing = false → n = 0) := by
  induction es generalizing c with
  | nil => exact ⟨rfl, [], by simp [LoggedUsb.run], by simp, ⟨[], by simp [UsbClient.run], .nil⟩, 0, 0, [], by simp [UsbClient.run],
      .nil, .nil, .inl rfl, fun _ => rfl⟩
  | cons e es ih =>
    have e1 : LoggedUsb.run fr order c (e :: es) = LoggedUsb.run fr order (LoggedUsb.step fr order c e) es := rfl
    have e2 : UsbClient.run c.usb (e :: es) = UsbClient.run (UsbClient.step c.usb e) es := rfl
    obtain ⟨i1, new, i2, i3, ⟨rs, i4, i5⟩, n, k, frames, i6, i7, i8, i9, i10⟩ := ih (LoggedUsb.step fr order c e)
    rw [e1, e2]
    by_cases he : ∃ m, e = .write m
    · obtain ⟨m, rfl⟩ := he
      obtain ⟨h1, h2, h⟩ := usb_write fr ho c m
      have hm : messagesOf (.write m :: es) = m :: messagesOf es := rfl
      rw [h1] at i1 i4 i6 i10
      rw [h2] at i4
      rw [hm]
      refine ⟨i1, ?_⟩
      have stop : (UsbClient.step c.usb (.write m)).writing = false → n = 0 ∧ k = 0 := by
        intro hw
        have := i10 hw
        rcases i9 with i9 | i9 <;> omega
      rcases h with ⟨hw, h3, h4⟩ | ⟨h3, h4, h5⟩ | ⟨f, h3, h4, h5⟩
      · obtain ⟨rfl, rfl⟩ := stop (by rw [h3]; exact hw)
        rw [h3] at i4 i6 ⊢
        rw [h4] at i2 ⊢
        exact ⟨new, i2, i3, ⟨rs, i4, i5⟩, 0, 0, frames, i6, i7, i8, .inl rfl, fun _ => rfl⟩
      · obtain ⟨rfl, rfl⟩ := stop h3
        rw [h4] at i6
        rw [h5] at i2
        exact ⟨new, i2, i3, ⟨rs, i4, i5⟩, 0, 0, frames, i6, i7, i8, .inl rfl, fun _ => rfl⟩
      · have hwr : c.usb.writing = false → False := by
          intro hw
          have : UsbClient.step c.usb (.write m) = c.usb := by
            simp [UsbClient.step, UsbClient.write, hw]
          rw [this] at h3
          simp at h3
        rcases h5 with ⟨h5, h6, h7⟩ | ⟨t, h5, h6⟩
        · obtain ⟨rfl, rfl⟩ := stop h5
          rw [h3, List.append_assoc] at i6
          rw [h6] at i2
          cases i7
          exact ⟨new, i2, i3, ⟨rs, i4, i5⟩, 1, 0, [f], i6, .cons h4 .nil, i8, .inr ⟨rfl, m, rfl, h7⟩, fun hw => (hwr hw).elim⟩
        · rw [h3, List.append_assoc] at i6
          rw [h6, List.append_assoc] at i2
          have hh : ("written ".toList ++ t).head? = some 'w' := rfl
          refine ⟨("written ".toList ++ t) :: new, i2, ?_, ⟨rs, i4, ?_⟩, n + 1, k + 1, f :: frames, i6, .cons h4 i7, ?_, ?_,
            fun hw => (hwr hw).elim⟩
          · intro l hl
            rcases List.mem_cons.1 hl with rfl | hl
            exacts [.inr hh, i3 l hl]
          · have : readLines (("written ".toList ++ t) :: new) = readLines new := by
              unfold readLines
              rw [List.filter_cons, hh]
              rfl
            rw [this]
            exact i5
          · have : writtenLines (("written ".toList ++ t) :: new) = ("written ".toList ++ t) :: writtenLines new := by
              unfold writtenLines
              rw [List.filter_cons, hh]
              rfl
            rw [this]
            refine .cons ⟨t, h5, ?_⟩ i8
            have e := fill_pieces "written {}" [t] "written ".toList [[]] (by decide +kernel) (by decide +kernel) rfl
            rw [e]
            simp
          · rcases i9 with rfl | ⟨rfl, i9⟩
            exacts [.inl rfl, .inr ⟨rfl, i9⟩]
    · obtain ⟨h1, h2, h3, rs', ls, h4, h5, h6, h7⟩ := usb_reads fr ho c fun m h => he ⟨m, h⟩
      have hm : messagesOf (e :: es) = messagesOf es := by
        cases e with
        | write m => exact absurd ⟨m, rfl⟩ he
        | _ => rfl
      obtain ⟨h8, h9⟩ := lines_read h7
      rw [h1] at i1 i4 i6 i10
      rw [h4, List.append_assoc] at i4
      rw [h2] at i6
      rw [h5, List.append_assoc] at i2
      rw [hm]
      refine ⟨i1, ls ++ new, i2, ?_, ⟨rs' ++ rs, i4, ?_⟩, n, k, frames, i6, i7, ?_, i9, fun hw => i10 ?_⟩
      · intro l hl
        rcases List.mem_append.1 hl with hl | hl
        exacts [.inl (h7 l hl), i3 l hl]
      · have : readLines (ls ++ new) = ls ++ readLines new := by
          unfold readLines at h8 ⊢
          rw [List.filter_append, h8]
        rw [this]
        exact List.rel_append h6 i5
      · have : writtenLines (ls ++ new) = writtenLines new := by
          unfold writtenLines at h9 ⊢
          rw [List.filter_append, h9, List.nil_append]
        rw [this]
        exact i8
      · by_contra hc
        rw [h3 (by simpa using hc)] at hw
        cases hw

/-- C118: a message that can be encoded but has no text is sent and not logged, and nothing more is written. -/
theorem c118_hidden_refuted (fr : PyFloat → List Char) {order : DptClass → List DptProp} (ho : OrderOk order) {c : LoggedUsb}
    (hw : c.usb.writing = true) {m : InMsg} {f : Msg} (hf : (encodeMsg m c.usb.state).1 = .ok f)
    (ht : ∀ t, m.text fr order ≠ .ok t) (es : List UsbClient.Event) :
    (∃ x, HexText x f ∧ (LoggedUsb.run fr order c (.write m :: es)).usb.written = c.usb.written ++ [x ++ ['\n']]) ∧
    ∃ new, (LoggedUsb.run fr order c (.write m :: es)).log = c.log ++ new ∧ writtenLines new = [] := by
  have h1 : (UsbClient.step c.usb (.write m)).written = c.usb.written ++ [msgRepr f ++ ['\n']] ∧
      (UsbClient.step c.usb (.write m)).writing = false ∧ (LoggedUsb.step fr order c (.write m)).log = c.log := by
    obtain ⟨-, -, h⟩ := usb_write fr ho c m
    have h2 : (UsbClient.step c.usb (.write m)).written = c.usb.written ++ [msgRepr f ++ ['\n']] := by
      simp only [UsbClient.step, UsbClient.write, hw, if_true, usbWriteLine_eq]
      rcases hx : encodeMsg m c.usb.state with ⟨e | f', s⟩ <;> rw [hx] at hf
      · cases hf
      · cases hf
        simp only
        cases Client.formatIn m <;> rfl
    rcases h with ⟨h3, -⟩ | ⟨-, h3, -⟩ | ⟨g, -, -, ⟨h3, h4, -⟩ | ⟨t, h3, -⟩⟩
    · rw [hw] at h3; cases h3
    · rw [h2] at h3; simp at h3
    · exact ⟨h2, h3, h4⟩
    · exact absurd h3 (ht t)
  obtain ⟨h2, h3, h4⟩ := h1
  obtain ⟨i1, new, i2, -, -, n, k, frames, i6, i7, i8, i9, i10⟩ := c118_log fr ho (LoggedUsb.step fr order c (.write m)) es
  have hu := (usb_write fr ho c m).1
  rw [hu] at i1 i6 i10
  obtain rfl := i10 h3
  obtain rfl : k = 0 := by rcases i9 with i9 | i9 <;> omega
  cases i7
  rw [h2, List.append_nil] at i6
  rw [h4] at i2
  refine ⟨⟨msgRepr f, hexText_msgRepr f, ?_⟩, new, i2, ?_⟩
  · show (LoggedUsb.run fr order (LoggedUsb.step fr order c (.write m)) es).usb.written = _
    rw [i1, i6]
  · cases hl : writtenLines new with
    | nil => rfl
    | cons a l => rw [hl] at i8; cases i8

/-- A message without text. -/
example : ∃ new, (LoggedUsb.run exFloatText (fun c => c.props.reverse) ⟨⟨exState .usbHid, [], true, true, [], []⟩, []⟩
    [.write (.groupWriteReq ⟨7, none⟩ ⟨.setupClima, 0x0F000000⟩), .write (.groupRead ⟨7, none⟩)]).log = [] ++ new ∧
    writtenLines new = [] := by
  obtain ⟨f, hf⟩ : ∃ f, (encodeMsg (.groupWriteReq ⟨7, none⟩ ⟨.setupClima, 0x0F000000⟩) (exState .usbHid)).1 = .ok f := ⟨_, rfl⟩
  refine (c118_hidden_refuted exFloatText exOrderOk (c := ⟨⟨exState .usbHid, [], true, true, [], []⟩, []⟩) rfl hf ?_ _).2
  intro t ht
  rw [show (InMsg.groupWriteReq ⟨7, none⟩ ⟨.setupClima, 0x0F000000⟩).text exFloatText (fun c => c.props.reverse) =
    .error .valueError by decide +kernel] at ht
  cases ht

/-- A message and a report: two lines, one about each. -/
example :
    let c : LoggedUsb := ⟨⟨exState .usbHid, [], true, true, [], []⟩, []⟩
    let es := [.write (.groupRead ⟨7, some "hall"⟩), .received (msgRepr (usbReport (cemi 0x29 [] exTelegram)) ++ ['\n'])]
    (∃ new, (LoggedUsb.run exFloatText (fun c => c.props.reverse) c es).log = [] ++ new ∧
      ∃ rs, (UsbClient.run c.usb es).seen = [] ++ rs ∧
        List.Forall₂ (ShowsRead exFloatText (fun c => c.props.reverse)) rs (readLines new)) ∧
    (LoggedUsb.run exFloatText (fun c => c.props.reverse) c es).log.length = 2 := by
  intro c es
  obtain ⟨-, new, h1, -, h2, -⟩ := c118_log exFloatText exOrderOk c es
  exact ⟨⟨new, h1, h2⟩, by decide +kernel⟩

end Knx
