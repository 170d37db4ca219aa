import Verif.Props.MsgTexts
import Verif.Props.RequestTexts
import Verif.Spec.LogTexts

/-! # C114: the wording of the log -/

namespace Knx
open Spec

theorem fill_free {p : List Char} (h : '{' ∉ p) (q : List Char) (vs : List (List Char)) : fill (p ++ q) vs = p ++ fill q vs := by
  induction p with
  | nil => rfl
  | cons c p ih =>
    rw [List.mem_cons, not_or] at h
    rw [List.cons_append, fill, ih h.2]
    · rfl
    · rintro cs v vs' e e' -
      first | exact h.1 e.symm | exact h.1 e'.symm

/-- A pattern cut at its fields. -/
theorem fill_pieces (pattern : String) (vs : List (List Char)) (p : List Char) (ps : List (List Char))
    (ht : pattern.toList = p ++ ps.flatMap fun p => '{' :: '}' :: p) (hf : ∀ x ∈ p :: ps, '{' ∉ x)
    (hl : vs.length = ps.length) : fill pattern.toList vs = p ++ (vs.zip ps).flatMap fun x => x.1 ++ x.2 := by
  rw [ht, fill_free (hf p (by simp))]
  congr 1
  replace hf : ∀ x ∈ ps, '{' ∉ x := fun x hx => hf x (by simp [hx])
  clear ht
  induction ps generalizing vs with
  | nil =>
    obtain rfl := List.length_eq_zero_iff.1 hl
    rfl
  | cons q ps ih =>
    cases vs with
    | nil => simp at hl
    | cons v vs =>
      have hl : vs.length = ps.length := by simpa using hl
      rw [List.flatMap_cons, List.zip_cons_cons, List.flatMap_cons, List.cons_append, List.cons_append, fill, fill_free (hf q (by simp)), ih _ hl (fun x hx => hf x (by simp [hx])), List.append_assoc]

theorem decimalAux_digits (fuel : Nat) : ∀ (n : Nat), n < fuel → ∀ acc, decimalAux fuel n acc = Nat.toDigits 10 n ++ acc := by
  have hd : ∀ d < 10, Char.ofNat ('0'.toNat + d) = d.digitChar := by decide
  induction fuel with
  | zero => exact fun n h => absurd h (Nat.not_lt_zero _)
  | succ fuel ih =>
    intro n h acc
    rw [Nat.toDigits_eq_if (by decide)]
    unfold decimalAux
    split_ifs with h10
    · rw [hd n h10]
      rfl
    · rw [ih _ (by omega), hd _ (Nat.mod_lt _ (by decide))]
      simp

theorem decimal_word (n : Nat) : decimal n = natWord n := by
  unfold decimal natWord
  rw [decimalAux_digits _ _ (Nat.lt_succ_self n), List.append_nil]
  show _ = (Nat.repr n).toList
  unfold Nat.repr
  rw [String.toList_ofList]

theorem intText_word (i : Int) : intText i = intWord i := by
  cases i with
  | ofNat n => exact decimal_word n
  | negSucc n =>
    show '-' :: decimal (n + 1) = ("-" ++ Nat.repr (n + 1)).toList
    rw [decimal_word, String.toList_append]
    rfl

theorem hexDigit_word {n : Nat} (h : n < 16) : hexDigit n = "0123456789ABCDEF".toList.getD n '?' := by
  have : ∀ n < 16, hexDigit n = "0123456789ABCDEF".toList.getD n '?' := by decide +kernel
  exact this n h

theorem hex4_word {n : Nat} (h : n < 2 ^ 16) : hex4 n = hexWord 4 n := by
  have e1 : n / 16 / 16 = n / 256 := by omega
  have e2 : n / 16 / 16 / 16 = n / 4096 := by omega
  simp only [hexWord, hex4, List.nil_append, List.cons_append]
  rw [e2, e1, hexDigit_word (by omega), hexDigit_word (by omega), hexDigit_word (by omega), hexDigit_word (by omega),
    Nat.mod_eq_of_lt (a := n / 4096) (by omega)]

theorem msgRepr_word (m : Msg) : msgRepr m = m.flatMap fun b => hexWord 2 b.toNat := by
  unfold msgRepr
  congr 1
  funext b
  have := b.isLt
  simp only [hexWord, List.nil_append, List.cons_append]
  rw [hexDigit_word (by omega), hexDigit_word (by omega), Nat.mod_eq_of_lt (a := b.toNat / 16) (by omega)]

theorem fill_ip (a b c d : List Char) :
    fill "{}.{}.{}.{}".toList [a, b, c, d] = a ++ '.' :: b ++ '.' :: c ++ '.' :: d := by
  simp only [List.append_assoc, List.cons_append]
  show a ++ '.' :: (b ++ '.' :: (c ++ '.' :: (d ++ []))) = _
  rw [List.append_nil]

theorem inetNtoa_word (ip : Nat) : inetNtoa ip = ipWord ip := by
  unfold inetNtoa ipWord
  rw [fill_ip]
  simp only [decimal_word]
  norm_num

theorem asapText_word (a : Asap) : asapText a = asapWord a := by
  obtain ⟨v, n⟩ := a
  cases n with
  | none => exact intText_word v
  | some n =>
    unfold asapText asapWord shownName
    by_cases h : n = ""
    · subst h
      exact intText_word v
    · rw [Option.filter_some, if_pos (by simpa using h)]
      simp only [if_neg h, intText_word, List.append_assoc]
      rfl

theorem flag_word (f : ConfirmFlag) : f.text = flagWord f := by
  cases f <;> rfl

theorem error_number (e : ErrorCode) : e.toNat = errorNumber e := by
  cases e <;> rfl

theorem connect_number (st : ConnectStatus) : st.toNat = connectNumber st := by
  cases st <;> rfl

theorem connectionstate_number (st : ConnStateStatus) : st.toNat = connectionstateNumber st := by
  cases st <;> rfl

theorem individual_word (a : Option (BitVec 16)) : optAddressText a = individualWord a := by
  cases a with
  | none => rfl
  | some a =>
    show '0' :: 'x' :: hex4 a.toNat = fill "0x{}".toList [hexWord 4 a.toNat]
    rw [hex4_word a.isLt]
    generalize hexWord 4 a.toNat = x
    show _ = '0' :: 'x' :: (x ++ [])
    rw [List.append_nil]

theorem errorRepr_word (st : ErrorCode) :
    st.repr = "<ErrorCodes.".toList ++ ((errorName st).toList ++ (": ".toList ++ (natWord (errorNumber st) ++ ">".toList))) := by
  have h : ∀ st : ErrorCode, natWord (errorNumber st) = [Char.ofNat (48 + errorNumber st)] := by
    intro st
    rw [← decimal_word]
    cases st <;> rfl
  rw [h]
  cases st <;> rfl

theorem ind_word : Conf.ind.word = "Ind".toList := rfl

theorem con_word (f : ConfirmFlag) : (Conf.con f).word = "Con".toList := rfl

theorem ind_status : Conf.ind.statusText = [] := rfl

theorem con_status (f : ConfirmFlag) : (Conf.con f).statusText = " status ".toList ++ flagWord f := by
  cases f <;> rfl

theorem ind_fields : statusFields .ind = [] := rfl

theorem con_fields (f : ConfirmFlag) : statusFields (.con f) = [flagWord f] := rfl

theorem group_pattern (svc : Svc) (conf : Conf) (t x : List Char) :
    "GroupValue".toList ++ svc.text ++ conf.word ++ conf.statusText ++ " (".toList ++ t ++ " for asap ".toList ++ x ++ ")".toList =
      fill (groupPattern svc (confirms conf)).toList (statusFields conf ++ [t, x]) := by
  cases conf with
  | ind =>
    have e := fill_pieces (groupPattern svc false) (statusFields .ind ++ [t, x])
      ("GroupValue".toList ++ svc.text ++ "Ind".toList ++ " (".toList) [" for asap ".toList, ")".toList]
      (by cases svc <;> decide +kernel) (by cases svc <;> decide +kernel) (by rfl)
    refine Eq.trans ?_ e.symm
    clear e
    rewrite [ind_word, ind_status, ind_fields]
    generalize "GroupValue".toList = a1, svc.text = a2, "Ind".toList = a3, " (".toList = a4, " for asap ".toList = a5, ")".toList = a6
    simp
  | con f =>
    have e := fill_pieces (groupPattern svc true) (statusFields (.con f) ++ [t, x])
      ("GroupValue".toList ++ svc.text ++ "Con".toList ++ " status ".toList) [" (".toList, " for asap ".toList, ")".toList]
      (by cases svc <;> decide +kernel) (by cases svc <;> decide +kernel) (by rfl)
    refine Eq.trans ?_ e.symm
    clear e
    rewrite [con_word, con_status, con_fields]
    generalize "GroupValue".toList = a1, svc.text = a2, "Con".toList = a3, " status ".toList = a4, " (".toList = a5,
      " for asap ".toList = a6, ")".toList = a7, flagWord f = y
    simp

/-- The text of the data of a property. -/
def dataWord : Option Msg → List Char
  | none => []
  | some d => " ".toList ++ msgRepr d

theorem property_pattern {svc : Svc} (conf : Conf) {data : Option Msg} (h : data = none ↔ svc = .read) (x1 x2 x3 x4 x : List Char) :
    "PropertyValue".toList ++ svc.text ++ conf.word ++ dataWord data ++
      conf.statusText ++ " (object index ".toList ++ x1 ++ ", property id ".toList ++ x2 ++ ", number of elements ".toList ++ x3 ++
      ", start index ".toList ++ x4 ++ " for asap ".toList ++ x ++ ")".toList =
    fill (propertyPattern svc (confirms conf)).toList
      ((data.map fun d => d.flatMap fun b => hexWord 2 b.toNat).toList ++ statusFields conf ++ [x1, x2, x3, x4, x]) := by
  cases data with
  | none =>
    obtain rfl : svc = .read := h.1 rfl
    rewrite [dataWord, Option.map_none, Option.toList_none]
    cases conf with
    | ind =>
      have e := fill_pieces (propertyPattern .read false) ([] ++ statusFields .ind ++ [x1, x2, x3, x4, x])
        ("PropertyValue".toList ++ Svc.read.text ++ "Ind".toList ++ " (object index ".toList) [", property id ".toList,
          ", number of elements ".toList, ", start index ".toList, " for asap ".toList, ")".toList] (by decide +kernel)
        (by decide +kernel) (by rfl)
      refine Eq.trans ?_ e.symm
      clear e
      rewrite [ind_word, ind_status, ind_fields]
      generalize "PropertyValue".toList = a1, Svc.read.text = a2, "Ind".toList = a3, " (object index ".toList = a4,
        ", property id ".toList = a5, ", number of elements ".toList = a6, ", start index ".toList = a7,
        " for asap ".toList = a8, ")".toList = a9
      simp
    | con f =>
      have e := fill_pieces (propertyPattern .read true) ([] ++ statusFields (.con f) ++ [x1, x2, x3, x4, x])
        ("PropertyValue".toList ++ Svc.read.text ++ "Con".toList ++ " status ".toList) [" (object index ".toList,
          ", property id ".toList, ", number of elements ".toList, ", start index ".toList, " for asap ".toList, ")".toList]
        (by decide +kernel) (by decide +kernel) (by rfl)
      refine Eq.trans ?_ e.symm
      clear e
      rewrite [con_word, con_status, con_fields]
      generalize "PropertyValue".toList = a1, Svc.read.text = a2, "Con".toList = a3, " (object index ".toList = a4,
        ", property id ".toList = a5, ", number of elements ".toList = a6, ", start index ".toList = a7,
        " for asap ".toList = a8, ")".toList = a9, " status ".toList = a10, flagWord f = y
      simp
  | some d =>
    have hs : svc ≠ .read := fun e => by have := h.2 e; cases this
    rewrite [dataWord, msgRepr_word, Option.map_some, Option.toList_some]
    generalize d.flatMap (fun b => hexWord 2 b.toNat) = z
    cases conf with
    | ind =>
      have e := fill_pieces (propertyPattern svc false) ([z] ++ statusFields .ind ++ [x1, x2, x3, x4, x])
        ("PropertyValue".toList ++ svc.text ++ "Ind".toList ++ " ".toList) [" (object index ".toList, ", property id ".toList,
          ", number of elements ".toList, ", start index ".toList, " for asap ".toList, ")".toList]
        (by cases svc <;> first | exact absurd rfl hs | decide +kernel) (by cases svc <;> decide +kernel) (by rfl)
      refine Eq.trans ?_ e.symm
      clear e
      rewrite [ind_word, ind_status, ind_fields]
      generalize "PropertyValue".toList = a1, svc.text = a2, "Ind".toList = a3, " (object index ".toList = a4,
        ", property id ".toList = a5, ", number of elements ".toList = a6, ", start index ".toList = a7,
        " for asap ".toList = a8, ")".toList = a9, " ".toList = a10
      simp
    | con f =>
      have e := fill_pieces (propertyPattern svc true) ([z] ++ statusFields (.con f) ++ [x1, x2, x3, x4, x])
        ("PropertyValue".toList ++ svc.text ++ "Con".toList ++ " ".toList) [" status ".toList, " (object index ".toList,
          ", property id ".toList, ", number of elements ".toList, ", start index ".toList, " for asap ".toList, ")".toList]
        (by cases svc <;> first | exact absurd rfl hs | decide +kernel) (by cases svc <;> decide +kernel) (by rfl)
      refine Eq.trans ?_ e.symm
      clear e
      rewrite [con_word, con_status, con_fields]
      generalize "PropertyValue".toList = a1, svc.text = a2, "Con".toList = a3, " (object index ".toList = a4,
        ", property id ".toList = a5, ", number of elements ".toList = a6, ", start index ".toList = a7,
        " for asap ".toList = a8, ")".toList = a9, " ".toList = a10, " status ".toList = a11, flagWord f = y
      simp

theorem items_word (fr : PyFloat → List Char) (kvs : List (String × PyVal)) :
    "{".toList ++ itemsText fr kvs = dictWord fr kvs := by
  have hv : ∀ v, valText fr v = valueWord fr v := by
    intro v
    cases v with
    | int n => exact intText_word n
    | str s => simp only [valText, List.append_assoc]; rfl
    | float f => rfl
  have key : ∀ kvs : List (String × PyVal), itemsText fr kvs = sepBy ", " (kvs.map fun kv => fill "'{}': {}".toList
      [kv.1.toList, valText fr kv.2]) ++ ['}'] := by
    intro kvs
    induction kvs with
    | nil => rfl
    | cons kv kvs ih =>
      cases kvs with
      | nil => simp [itemsText, sepBy, fill]
      | cons kv' kvs =>
        rw [itemsText, ih]
        · simp [sepBy, fill]
        · simp
  rw [key]
  unfold dictWord
  simp only [hv]
  generalize sepBy ", " _ = x
  simp [fill]

/-- C114: the text of a datapoint is the name of its type and its fields as a dict. -/
theorem c114_datapoint (fr : PyFloat → List Char) (order : DptClass → List DptProp) (d : Dpt) :
    d.text fr order =
      if isFloat16 d.cls then .ok (fill "{}: {}".toList [(typeName d.cls).toList, dictWord fr [("decoded_value", .float (decode16 d.raw))]])
      else if isFloat32 d.cls then
        .ok (fill "{}: {}".toList [(typeName d.cls).toList, dictWord fr [("decoded_value", .float (decode32 d.raw))]])
      else (d.describeIn (order d.cls)).map fun p => fill "{} {}".toList [(typeName d.cls).toList, dictWord fr p.2] := by
  have h2 : ∀ a b : List Char, fill "{} {}".toList [a, b] = a ++ (" ".toList ++ b) := fun a b => by simp [fill]
  have h1 : ∀ a b : List Char, fill "{}: {}".toList [a, b] = a ++ (": ".toList ++ b) := fun a b => by simp [fill]
  rw [Dpt.text]
  cases hk : d.cls.kind with
  | float16 =>
    rw [if_pos (kind_float16.2 hk), h1, ← items_word, ← name_type]
    simp only [List.append_assoc]
  | float32 =>
    rw [if_neg (fun h => by cases hk.symm.trans (kind_float16.1 h)), if_pos (kind_float32.2 hk), h1,
      ← items_word, ← name_type]
    simp only [List.append_assoc]
  | bits =>
    rw [if_neg (fun h => by cases hk.symm.trans (kind_float16.1 h)),
      if_neg (fun h => by cases hk.symm.trans (kind_float32.1 h))]
    have hn : ∀ p, d.describeIn (order d.cls) = .ok p → p.1 = typeName d.cls := by
      intro p hp
      rw [Dpt.describeIn, hk] at hp
      cases hq : Dpt.describeProps d.raw (order d.cls) with
      | error e => rw [hq] at hp; cases hp
      | ok kvs =>
        rw [hq] at hp
        cases hp
        exact name_type d.cls
    cases hp : d.describeIn (order d.cls) with
    | error e => rfl
    | ok p =>
      obtain ⟨name, kvs⟩ := p
      have := hn _ hp
      simp only [Except.map, h2, ← items_word, ← this, List.append_assoc]

example : (⟨.switch, 0x15⟩ : Dpt).text exFloatText (fun c => c.props.reverse) = .ok "DPT_Switch {'action': 'on'}".toList := by
  rw [c114_datapoint]
  decide +kernel

set_option maxRecDepth 4000 in
/-- C114: the text of a decoded message is the pattern of its kind with its fields. -/
theorem c114_received {name : Int → Option String} {m : OutMsg} (h : Proper name m) (fr : PyFloat → List Char)
    (order : DptClass → List DptProp) :
    m.text fr order = match datapointOf m with
      | some d => (d.text fr order).map fun t => fill (wording t m).1.toList (wording t m).2
      | none => .ok (fill (wording [] m).1.toList (wording [] m).2) := by
  cases m with
  | group svc conf a d =>
    simp only [datapointOf, OutMsg.text, wording]
    cases d.text fr order with
    | error e => rfl
    | ok t => exact congrArg Except.ok (by rw [asapText_word, group_pattern])
  | property svc conf a oi pid noe si data =>
    simp only [datapointOf, OutMsg.text, wording]
    exact congrArg Except.ok (by 
      rw [← property_pattern conf h.2, asapText_word, decimal_word, decimal_word, decimal_word, decimal_word]
      cases data <;> rfl)
  | connectionStatus c => cases c <;> rfl
  | emiType t => cases t <;> rfl
  | searchRes ip port ia =>
    simp only [datapointOf, OutMsg.text, inetNtoa_word, decimal_word, hex4_word h.2, List.append_assoc, wording]
    generalize ipWord ip = x1, natWord port = x2, hexWord 4 ia = x3
    rfl
  | connectRes ip port ia st =>
    simp only [datapointOf, OutMsg.text, inetNtoa_word, decimal_word, individual_word, List.append_assoc, connect_number, wording]
    generalize ipWord ip = x1, natWord port = x2, natWord (connectNumber st) = x3, individualWord ia = x4
    rfl
  | connectionstateRes st =>
    simp only [datapointOf, OutMsg.text, decimal_word, List.append_assoc, connectionstate_number, wording]
    generalize natWord (connectionstateNumber st) = x1
    rfl
  | disconnectRes chan st =>
    simp only [datapointOf, OutMsg.text, decimal_word, error_number, List.append_assoc, wording]
    generalize natWord chan = x1, natWord (errorNumber st) = x2
    rfl
  | tunnelingReq seq st =>
    simp only [datapointOf, OutMsg.text, decimal_word, errorRepr_word, List.append_assoc, wording]
    generalize natWord seq = x1, natWord (errorNumber st) = x2, (errorName st).toList = x3
    rfl
  | tunnelingAck seq st =>
    simp only [datapointOf, OutMsg.text, decimal_word, error_number, List.append_assoc, wording]
    generalize natWord seq = x1, natWord (errorNumber st) = x2
    rfl

example : (OutMsg.group .write .ind ⟨5, some "lamp"⟩ ⟨.switch, 0xFF⟩).text exFloatText (fun c => c.props.reverse) =
    .ok "GroupValueWriteInd (DPT_Switch {'action': 'on'} for asap 5 (lamp))".toList := by
  have hp : Proper (fun _ => some "lamp") (.group .write .ind ⟨5, some "lamp"⟩ ⟨.switch, 0xFF⟩) := ⟨rfl, show (255 : Nat) < 256 by decide⟩
  rw [c114_received hp]
  decide +kernel

/-- C114: what the log shows of the messages that decoding returned. -/
theorem c114_list (fr : PyFloat → List Char) (order : DptClass → List DptProp) {ms : List OutMsg} {ts : List (List Char)}
    (h : List.Forall₂ (fun m t => m.text fr order = .ok t) ms ts) :
    listText fr order ms = .ok (fill "[{}]".toList [sepBy ", " ts]) := by
  have key : listItems fr order ms = .ok (sepBy ", " ts ++ [']']) := by
    induction h with
    | nil => rfl
    | @cons m t ms ts hm hms ih =>
      cases hms with
      | nil => simp [listItems, hm, sepBy]
      | cons hm' hms' =>
        rw [listItems, hm]
        · simp only [ih]
          simp [sepBy]
        · simp
  rw [listText, key]
  simp [fill]

example : listText exFloatText (fun c => c.props.reverse) [.tunnelingReq 7 .noError, .tunnelingAck 255 .noError] =
    .ok "[TunnelingReq(sequence counter=7, status=<ErrorCodes.E_NO_ERROR: 0>), TunnelingAck(sequence counter=255, status=0)]".toList := by
  rw [c114_list _ _ (ts := ["TunnelingReq(sequence counter=7, status=<ErrorCodes.E_NO_ERROR: 0>)".toList,
    "TunnelingAck(sequence counter=255, status=0)".toList]) (.cons (by decide +kernel) (.cons (by decide +kernel) .nil))]
  decide +kernel

/-- C114: so the log of what was decoded from a frame has one such text for each message. -/
theorem c114_log {s s' : State} (hg : OneEach s.got) {msg : Msg} {r : Res} (h : decodeMsg msg s = (.ok r, s'))
    (fr : PyFloat → List Char) (order : DptClass → List DptProp) {t : List Char} (ht : listText fr order (messages r) = .ok t) :
    ∃ ts, t = fill "[{}]".toList [sepBy ", " ts] ∧ List.Forall₂ (fun m t => match datapointOf m with
      | some d => ∃ u, d.text fr order = .ok u ∧ t = fill (wording u m).1.toList (wording u m).2
      | none => t = fill (wording [] m).1.toList (wording [] m).2) (messages r) ts := by
  have hp := c89_decoded hg h
  have hl : ∀ l : List OutMsg, ∀ x, listItems fr order l = .ok x →
      ∃ ts, List.Forall₂ (fun m t => m.text fr order = .ok t) l ts := by
    intro l
    induction l with
    | nil => exact fun x _ => ⟨[], .nil⟩
    | cons m l ih =>
      intro x hx
      cases l with
      | nil =>
        rw [listItems] at hx
        cases hm : m.text fr order with
        | error e => rw [hm] at hx; cases hx
        | ok u => exact ⟨[u], .cons hm .nil⟩
      | cons m' l =>
        rw [listItems] at hx
        · cases hm : m.text fr order with
          | error e => rw [hm] at hx; cases hx
          | ok u =>
            rw [hm] at hx
            cases hi : listItems fr order (m' :: l) with
            | error e => simp [hi] at hx
            | ok y =>
              obtain ⟨ts, hts⟩ := ih y hi
              exact ⟨u :: ts, .cons hm hts⟩
        · simp
  obtain ⟨ts, hts⟩ : ∃ ts, List.Forall₂ (fun m t => m.text fr order = .ok t) (messages r) ts := by
    cases hx : listItems fr order (messages r) with
    | error e => rw [listText, hx] at ht; cases ht
    | ok x => exact hl _ x hx
  have := c114_list fr order hts
  rw [this, Except.ok.injEq] at ht
  refine ⟨ts, ht.symm, ?_⟩
  generalize messages r = l at hp hts
  clear this ht
  induction hts with
  | nil => exact .nil
  | @cons m t l ts hm hms ih =>
    refine .cons ?_ (ih fun m hm => hp m (List.mem_cons_of_mem _ hm))
    have := c114_received (hp m List.mem_cons_self) fr order
    rw [hm] at this
    cases hd : datapointOf m with
    | none =>
      rw [hd] at this
      exact Except.ok.inj this
    | some d =>
      rw [hd] at this
      cases hu : d.text fr order with
      | error e => simp only [hu] at this; cases this
      | ok u =>
        simp only [hu] at this
        exact ⟨u, hu, Except.ok.inj this⟩

/-- A telegram for two ASAPs. -/
example : ∃ ts, listText exFloatText (fun c => c.props.reverse)
      [.group .write .ind ⟨3, none⟩ ⟨.switch, 0x65⟩, .group .write .ind ⟨7, none⟩ ⟨.float16, 0x0C65⟩] =
    .ok (fill "[{}]".toList [sepBy ", " ts]) ∧ ts.length = 2 := by
  have hg : OneEach (exState .usbHid).got := by unfold OneEach; decide
  have hd : decodeMsg (usbReport (cemi 0x29 [] exTelegram)) (exState .usbHid) = (.ok (.list
      [.group .write .ind ⟨3, none⟩ ⟨.switch, 0x65⟩, .group .write .ind ⟨7, none⟩ ⟨.float16, 0x0C65⟩]),
      (decodeMsg (usbReport (cemi 0x29 [] exTelegram)) (exState .usbHid)).2) := by
    decide
  obtain ⟨t, ht⟩ : ∃ t, listText exFloatText (fun c => c.props.reverse)
      (messages (.list [.group .write .ind ⟨3, none⟩ ⟨.switch, 0x65⟩, .group .write .ind ⟨7, none⟩ ⟨.float16, 0x0C65⟩])) = .ok t :=
    ⟨_, rfl⟩
  obtain ⟨ts, rfl, h⟩ := c114_log hg hd exFloatText (fun c => c.props.reverse) ht
  exact ⟨ts, ht, h.length_eq.symm⟩

set_option maxRecDepth 4000 in
/-- C114: the text of a message to be sent is the pattern of its kind with its fields. -/
theorem c114_sent (m : InMsg) (fr : PyFloat → List Char) (order : DptClass → List DptProp) :
    m.text fr order = match datapointIn m with
      | some d => (d.text fr order).map fun t => fill (requestWording t m).1.toList (requestWording t m).2
      | none => .ok (fill (requestWording [] m).1.toList (requestWording [] m).2) := by
  cases m with
  | connectReq ci cp di dp =>
    simp only [datapointIn, InMsg.text, inetNtoa_word, intText_word, List.append_assoc, requestWording]
    generalize ipWord ci.toNat = x1, intWord cp = x2, ipWord di.toNat = x3, intWord dp = x4
    rfl
  | disconnectReq ip port | connectionstateReq ip port | searchReq ip port =>
    simp only [datapointIn, InMsg.text, inetNtoa_word, intText_word, List.append_assoc, requestWording]
    generalize ipWord ip.toNat = x1, intWord port = x2
    rfl
  | tunnelingAck seq st =>
    simp only [datapointIn, InMsg.text, decimal_word, error_number, List.append_assoc, requestWording]
    generalize natWord seq = x1, natWord (errorNumber st) = x2
    rfl
  | groupRead a =>
    simp only [datapointIn, InMsg.text, asapText_word, List.append_assoc, requestWording]
    generalize asapWord a = x
    rfl
  | groupWriteReq a d | groupWriteInd a d =>
    simp only [datapointIn, InMsg.text]
    cases d.text fr order with
    | error e => rfl
    | ok t =>
      simp only [Except.map, asapText_word, List.append_assoc, requestWording]
      generalize asapWord a = x
      rfl
  | propertyRead a oi pid n si =>
    simp only [datapointIn, InMsg.text, intText_word, asapText_word, List.append_assoc, requestWording]
    generalize intWord oi = x1, intWord pid = x2, intWord n = x3, intWord si = x4, asapWord a = x
    rfl
  | propertyWrite a oi pid n si data =>
    simp only [datapointIn, InMsg.text, intText_word, asapText_word, List.append_assoc, requestWording]
    generalize intWord oi = x1, intWord pid = x2, intWord n = x3, intWord si = x4, asapWord a = x
    rfl

example : (InMsg.searchReq 0xC0A80001 3671).text exFloatText (fun c => c.props.reverse) =
    .ok "SearchReq (192.168.0.1:3671)".toList := by
  rw [c114_sent]
  decide +kernel

end Knx
