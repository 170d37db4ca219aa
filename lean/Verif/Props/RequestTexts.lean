import Verif.Model.RequestTexts
import Verif.Spec.RequestTexts
import Verif.Props.TableTexts
import Verif.Props.Exact
import Verif.Props.Order

/-! # C91: what the texts of messages to be sent tell -/

namespace Knx
open Spec AssocTable

/-- The first word of the text. -/
def reqWord : InMsg → List Char
  | .connectReq .. => "ConnectReq".toList
  | .disconnectReq .. => "DisconnectReq".toList
  | .connectionstateReq .. => "ConnectionstateReq".toList
  | .searchReq .. => "SearchReq".toList
  | .tunnelingAck .. => "TunnelingAck".toList
  | .groupRead .. => "GroupValueReadReq".toList
  | .groupWriteReq .. => "GroupValueWriteReq".toList
  | .groupWriteInd .. => "GroupValueWriteInd".toList
  | .propertyRead .. => "PropertyValueReadReq".toList
  | .propertyWrite .. => "PropertyValueWriteReq".toList

theorem reqWord_chars (m : InMsg) : ∀ c ∈ reqWord m, c ≠ ' ' ∧ c ≠ '(' := by
  cases m <;> (unfold reqWord; dsimp only; decide)

/-- What follows the first word. -/
def reqRest (fr : PyFloat → List Char) (order : DptClass → List DptProp) : InMsg → Except Err (List Char)
  | .connectReq ci cp di dp =>
    .ok (" (control endpoint = ".toList ++ (inetNtoa ci.toNat ++ (":".toList ++ (intText cp ++
      (" data endpoint ".toList ++ (inetNtoa di.toNat ++ (":".toList ++ (intText dp ++ ")".toList))))))))
  | .disconnectReq ip port =>
    .ok (" (control endpoint = ".toList ++ (inetNtoa ip.toNat ++ (":".toList ++ (intText port ++ ")".toList))))
  | .connectionstateReq ip port =>
    .ok (" (control endpoint = ".toList ++ (inetNtoa ip.toNat ++ (":".toList ++ (intText port ++ ")".toList))))
  | .searchReq ip port => .ok (" (".toList ++ (inetNtoa ip.toNat ++ (":".toList ++ (intText port ++ ")".toList))))
  | .tunnelingAck seq st =>
    .ok ("(sequence counter=".toList ++ (decimal seq ++ (", status=".toList ++ (decimal st.toNat ++ ")".toList))))
  | .groupRead asap => .ok (" (for asap ".toList ++ (asapText asap ++ ")".toList))
  | .groupWriteReq asap dpt =>
    match dpt.text fr order with
    | .error e => .error e
    | .ok t => .ok (" (".toList ++ (t ++ (" for asap ".toList ++ (asapText asap ++ ")".toList))))
  | .groupWriteInd asap dpt =>
    match dpt.text fr order with
    | .error e => .error e
    | .ok t => .ok (" (".toList ++ (t ++ (" for asap ".toList ++ (asapText asap ++ ")".toList))))
  | .propertyRead asap oi pid n si =>
    .ok (" (object index ".toList ++ (intText oi ++ (", property id ".toList ++ (intText pid ++
      (", number of elements ".toList ++ (intText n ++ (", start index ".toList ++ (intText si ++ (" for asap ".toList ++
      (asapText asap ++ ")".toList))))))))))
  | .propertyWrite asap oi pid n si data =>
    .ok (" ".toList ++ (data ++ (" (object index ".toList ++ (intText oi ++ (", property id ".toList ++ (intText pid ++
      (", number of elements ".toList ++ (intText n ++ (", start index ".toList ++ (intText si ++ (" for asap ".toList ++
      (asapText asap ++ ")".toList))))))))))))

theorem req_parts (fr : PyFloat → List Char) (order : DptClass → List DptProp) (m : InMsg) :
    m.text fr order = match reqRest fr order m with
      | .error e => .error e
      | .ok r => .ok (reqWord m ++ r) := by
  have hw : ∀ d : Dpt, ∀ w : List Char, ∀ a : Asap,
      (match d.text fr order with
      | .error e => Except.error e
      | .ok t => Except.ok (w ++ " (".toList ++ t ++ " for asap ".toList ++ asapText a ++ ")".toList)) =
      match (match d.text fr order with
        | .error e => Except.error e
        | .ok t => Except.ok (" (".toList ++ (t ++ (" for asap ".toList ++ (asapText a ++ ")".toList))))) with
      | .error e => .error e
      | .ok r => .ok (w ++ r) := by
    intro d w a
    cases d.text fr order with
    | error e => rfl
    | ok t => simp only [List.append_assoc]
  cases m with
  | connectReq ci cp di dp =>
    unfold InMsg.text reqRest reqWord
    dsimp only
    rw [show "ConnectReq (control endpoint = ".toList = "ConnectReq".toList ++ " (control endpoint = ".toList by decide]
    simp only [List.append_assoc]
  | disconnectReq ip port =>
    unfold InMsg.text reqRest reqWord
    dsimp only
    rw [show "DisconnectReq (control endpoint = ".toList = "DisconnectReq".toList ++ " (control endpoint = ".toList by decide]
    simp only [List.append_assoc]
  | connectionstateReq ip port =>
    unfold InMsg.text reqRest reqWord
    dsimp only
    rw [show "ConnectionstateReq (control endpoint = ".toList = "ConnectionstateReq".toList ++ " (control endpoint = ".toList by decide]
    simp only [List.append_assoc]
  | searchReq ip port =>
    unfold InMsg.text reqRest reqWord
    dsimp only
    rw [show "SearchReq (".toList = "SearchReq".toList ++ " (".toList by decide]
    simp only [List.append_assoc]
  | tunnelingAck seq st =>
    unfold InMsg.text reqRest reqWord
    dsimp only
    rw [show "TunnelingAck(sequence counter=".toList = "TunnelingAck".toList ++ "(sequence counter=".toList by decide]
    simp only [List.append_assoc]
  | groupRead a =>
    unfold InMsg.text reqRest reqWord
    dsimp only
    rw [show "GroupValueReadReq (for asap ".toList = "GroupValueReadReq".toList ++ " (for asap ".toList by decide]
    simp only [List.append_assoc]
  | groupWriteReq a d =>
    unfold InMsg.text reqRest reqWord
    dsimp only
    rw [show "GroupValueWriteReq (".toList = "GroupValueWriteReq".toList ++ " (".toList by decide]
    exact hw d _ a
  | groupWriteInd a d =>
    unfold InMsg.text reqRest reqWord
    dsimp only
    rw [show "GroupValueWriteInd (".toList = "GroupValueWriteInd".toList ++ " (".toList by decide]
    exact hw d _ a
  | propertyRead a oi pid n si =>
    unfold InMsg.text reqRest reqWord
    dsimp only
    rw [show "PropertyValueReadReq (object index ".toList = "PropertyValueReadReq".toList ++ " (object index ".toList by decide]
    simp only [List.append_assoc]
  | propertyWrite a oi pid n si data =>
    unfold InMsg.text reqRest reqWord
    dsimp only
    rw [show "PropertyValueWriteReq ".toList = "PropertyValueWriteReq".toList ++ " ".toList by decide]
    simp only [List.append_assoc]

theorem reqRest_head {fr : PyFloat → List Char} {order : DptClass → List DptProp} {m : InMsg} {r : List Char}
    (h : reqRest fr order m = .ok r) : ∃ s u, r = s :: u ∧ (s = ' ' ∨ s = '(') := by
  have hlit : ∀ {lit : List Char} {s : Char}, s = ' ' ∨ s = '(' → lit.head? = some s → ∀ r, ∃ s u, lit ++ r = s :: u ∧ (s = ' ' ∨ s = '(') := by
    intro lit s hs hl r
    obtain ⟨u, hu⟩ := lit_head s hl r
    exact ⟨_, u, hu, hs⟩
  cases m with
  | groupWriteReq a d =>
    unfold reqRest at h
    dsimp only at h
    cases hd : d.text fr order with
    | error e => simp [hd] at h
    | ok t =>
      simp only [hd, Except.ok.injEq] at h
      subst h
      exact hlit (.inl rfl) (by decide) _
  | groupWriteInd a d =>
    unfold reqRest at h
    dsimp only at h
    cases hd : d.text fr order with
    | error e => simp [hd] at h
    | ok t =>
      simp only [hd, Except.ok.injEq] at h
      subst h
      exact hlit (.inl rfl) (by decide) _
  | tunnelingAck seq st =>
    unfold reqRest at h
    simp only [Except.ok.injEq] at h
    subst h
    exact hlit (.inr rfl) (by decide) _
  | _ =>
    unfold reqRest at h
    simp only [Except.ok.injEq] at h
    subst h
    exact hlit (.inl rfl) (by decide) _

/-- The first word of the text, and what follows, can be read off. -/
theorem reqWord_unique {fr : PyFloat → List Char} {order : DptClass → List DptProp} {m m' : InMsg} {t : List Char}
    (h : m.text fr order = .ok t) (h' : m'.text fr order = .ok t) :
    reqWord m = reqWord m' ∧ ∃ r, reqRest fr order m = .ok r ∧ reqRest fr order m' = .ok r := by
  rw [req_parts] at h h'
  cases hr : reqRest fr order m with
  | error e => simp [hr] at h
  | ok r =>
  cases hr' : reqRest fr order m' with
  | error e => simp [hr'] at h'
  | ok r' =>
    simp only [hr, Except.ok.injEq] at h
    simp only [hr', Except.ok.injEq] at h'
    obtain ⟨s, u, rfl, hs⟩ := reqRest_head hr
    obtain ⟨s', u', rfl, hs'⟩ := reqRest_head hr'
    obtain ⟨h1, h2⟩ := span_unique (fun c => c ≠ ' ' ∧ c ≠ '(') (reqWord_chars m) (reqWord_chars m')
      (fun c hc => by rw [List.head?_cons, Option.mem_some_iff] at hc; subst hc; rcases hs with rfl | rfl <;> decide)
      (fun c hc => by rw [List.head?_cons, Option.mem_some_iff] at hc; subst hc; rcases hs' with rfl | rfl <;> decide)
      (h.trans h'.symm)
    exact ⟨h1, _, rfl, by rw [h2]⟩

theorem int_unique {s : Char} (hs : s ∉ '-' :: decTable.map Prod.fst) {lit : List Char} (hl : lit.head? = some s) {n n' : Int}
    {r r' : List Char} (h : intText n ++ (lit ++ r) = intText n' ++ (lit ++ r')) : n = n' ∧ r = r' := by
  obtain ⟨h1, h2⟩ := upto_text s hl (fun hc => hs (intText_chars hc)) (fun hc => hs (intText_chars hc)) h
  exact ⟨intText_inj h1, h2⟩

theorem int_last {n n' : Int} (h : intText n ++ ")".toList = intText n' ++ ")".toList) : n = n' :=
  intText_inj (List.append_cancel_right h)

theorem asap_last {a a' : Asap} (h : asapText a ++ ")".toList = asapText a' ++ ")".toList) : SameAsap a a' :=
  asapText_eq.1 (List.append_cancel_right h)

theorem ip_unique {ip ip' : BitVec 32} {r r' : List Char}
    (h : inetNtoa ip.toNat ++ (":".toList ++ r) = inetNtoa ip'.toNat ++ (":".toList ++ r')) : ip = ip' ∧ r = r' := by
  have hfree : ∀ ip : Nat, ':' ∉ inetNtoa ip := by
    intro ip
    unfold inetNtoa
    have hd : ∀ n, ':' ∉ decimal n := fun n => decimal_free (by decide)
    simp only [List.mem_append, List.mem_cons, not_or]
    exact ⟨⟨⟨hd _, by decide, hd _⟩, by decide, hd _⟩, by decide, hd _⟩
  obtain ⟨h1, h2⟩ := upto_text ':' (by decide) (hfree _) (hfree _) h
  exact ⟨BitVec.eq_of_toNat_eq (ntoa_inj ip.isLt ip'.isLt h1), h2⟩

theorem header_unique {a a' : Asap} {oi oi' pid pid' n n' si si' : Int} (h :
    intText oi ++ (", property id ".toList ++ (intText pid ++ (", number of elements ".toList ++ (intText n ++
      (", start index ".toList ++ (intText si ++ (" for asap ".toList ++ (asapText a ++ ")".toList)))))))) =
    intText oi' ++ (", property id ".toList ++ (intText pid' ++ (", number of elements ".toList ++ (intText n' ++
      (", start index ".toList ++ (intText si' ++ (" for asap ".toList ++ (asapText a' ++ ")".toList))))))))) :
    oi = oi' ∧ pid = pid' ∧ n = n' ∧ si = si' ∧ SameAsap a a' := by
  obtain ⟨h1, h⟩ := int_unique (s := ',') (by decide) (by decide) h
  obtain ⟨h2, h⟩ := int_unique (s := ',') (by decide) (by decide) h
  obtain ⟨h3, h⟩ := int_unique (s := ',') (by decide) (by decide) h
  obtain ⟨h4, h⟩ := int_unique (s := ' ') (by decide) (by decide) h
  exact ⟨h1, h2, h3, h4, asap_last h⟩

/-- C91: two messages to be sent, with data without spaces if they are property writes, have the same text exactly if they
are of the same kind and have the same fields, but for bits of the datapoint that are not shown. -/
theorem c91_same {fr : PyFloat → List Char} (hf : FloatTexts fr) {order : DptClass → List DptProp} (ho : OrderOk order)
    {m m' : InMsg} (hs : Spaceless m) (hs' : Spaceless m') (hw : WfRequest m) (hw' : WfRequest m') {t : List Char}
    (h : m.text fr order = .ok t) : m'.text fr order = .ok t ↔ SameRequest m m' := by
  constructor
  · intro h'
    obtain ⟨hword, r, hr, hr'⟩ := reqWord_unique h h'
    have hwrite : ∀ {a a' : Asap} {d d' : Dpt} {r : List Char},
        (match d.text fr order with
          | .error e => Except.error e
          | .ok t => Except.ok (" (".toList ++ (t ++ (" for asap ".toList ++ (asapText a ++ ")".toList))))) = .ok r →
        (match d'.text fr order with
          | .error e => Except.error e
          | .ok t => Except.ok (" (".toList ++ (t ++ (" for asap ".toList ++ (asapText a' ++ ")".toList))))) = .ok r →
        SameAsap a a' ∧ SameDisplay d d' := by
      intro a a' d d' r h h'
      cases hd : d.text fr order with
      | error e => simp [hd] at h
      | ok t =>
      cases hd' : d'.text fr order with
      | error e => simp [hd'] at h'
      | ok t' =>
        simp only [hd, Except.ok.injEq] at h
        simp only [hd', Except.ok.injEq] at h'
        obtain ⟨h1, h2⟩ := dpt_unique hf ho hd hd' (List.append_cancel_left (h.trans h'.symm))
        exact ⟨asap_last (List.append_cancel_left h2), h1⟩
    cases m <;> cases m' <;> (first | (exfalso; revert hword; unfold reqWord; dsimp only; decide) | skip)
    case connectReq.connectReq ci cp di dp ci' cp' di' dp' =>
      unfold reqRest at hr hr'
      simp only [Except.ok.injEq] at hr hr'
      have h := List.append_cancel_left (hr.trans hr'.symm)
      obtain ⟨rfl, h2⟩ := ip_unique h
      obtain ⟨rfl, h3⟩ := int_unique (s := ' ') (by decide) (by decide) h2
      obtain ⟨rfl, h4⟩ := ip_unique h3
      rw [int_last h4]
      rfl
    case disconnectReq.disconnectReq =>
      unfold reqRest at hr hr'
      simp only [Except.ok.injEq] at hr hr'
      have h := List.append_cancel_left (hr.trans hr'.symm)
      obtain ⟨rfl, h2⟩ := ip_unique h
      rw [int_last h2]
      rfl
    case connectionstateReq.connectionstateReq =>
      unfold reqRest at hr hr'
      simp only [Except.ok.injEq] at hr hr'
      have h := List.append_cancel_left (hr.trans hr'.symm)
      obtain ⟨rfl, h2⟩ := ip_unique h
      rw [int_last h2]
      rfl
    case searchReq.searchReq =>
      unfold reqRest at hr hr'
      simp only [Except.ok.injEq] at hr hr'
      have h := List.append_cancel_left (hr.trans hr'.symm)
      obtain ⟨rfl, h2⟩ := ip_unique h
      rw [int_last h2]
      rfl
    case tunnelingAck.tunnelingAck =>
      unfold reqRest at hr hr'
      simp only [Except.ok.injEq] at hr hr'
      have h := List.append_cancel_left (hr.trans hr'.symm)
      obtain ⟨h1, h⟩ := upto_text ',' (by decide) (decimal_free (by decide)) (decimal_free (by decide)) h
      rw [decimal_inj h1, errorCode_inj (decimal_inj (List.append_cancel_right h))]
      rfl
    case groupRead.groupRead =>
      unfold reqRest at hr hr'
      simp only [Except.ok.injEq] at hr hr'
      exact ⟨_, rfl, asap_last (List.append_cancel_left (hr.trans hr'.symm))⟩
    case groupWriteReq.groupWriteReq =>
      obtain ⟨h1, h2⟩ := hwrite hr hr'
      exact ⟨_, _, rfl, h1, h2⟩
    case groupWriteInd.groupWriteInd =>
      obtain ⟨h1, h2⟩ := hwrite hr hr'
      exact ⟨_, _, rfl, h1, h2⟩
    case propertyRead.propertyRead =>
      unfold reqRest at hr hr'
      simp only [Except.ok.injEq] at hr hr'
      obtain ⟨rfl, rfl, rfl, rfl, h⟩ := header_unique (List.append_cancel_left (hr.trans hr'.symm))
      exact ⟨_, rfl, h⟩
    case propertyWrite.propertyWrite =>
      unfold reqRest at hr hr'
      simp only [Except.ok.injEq] at hr hr'
      obtain ⟨rfl, h2⟩ := upto_text ' ' (by decide) hs hs' (List.append_cancel_left (hr.trans hr'.symm))
      obtain ⟨rfl, rfl, rfl, rfl, h3⟩ := header_unique h2
      exact ⟨_, rfl, h3⟩
  · intro h1
    rw [← h]
    have ha : ∀ {a a' : Asap}, SameAsap a a' → asapText a' = asapText a := fun h => (asapText_eq.2 h).symm
    cases m with
    | groupRead a => obtain ⟨a', rfl, e⟩ := h1; unfold InMsg.text; simp only [ha e]
    | groupWriteReq a d =>
      obtain ⟨a', d', rfl, e, e'⟩ := h1
      unfold InMsg.text; simp only [ha e, dpt_text_congr fr ho hw hw' e']
    | groupWriteInd a d =>
      obtain ⟨a', d', rfl, e, e'⟩ := h1
      unfold InMsg.text; simp only [ha e, dpt_text_congr fr ho hw hw' e']
    | propertyRead a => obtain ⟨a', rfl, e⟩ := h1; unfold InMsg.text; simp only [ha e]
    | propertyWrite a => obtain ⟨a', rfl, e⟩ := h1; unfold InMsg.text; simp only [ha e]
    | connectReq => obtain rfl := h1; rfl
    | disconnectReq => obtain rfl := h1; rfl
    | connectionstateReq => obtain rfl := h1; rfl
    | searchReq => obtain rfl := h1; rfl
    | tunnelingAck => obtain rfl := h1; rfl

/-- The property ids 12 and 121 are told apart. -/
example : (InMsg.propertyRead ⟨7, none⟩ 0 121 1 1).text exFloatText (fun c => c.props.reverse) ≠
    (InMsg.propertyRead ⟨7, none⟩ 0 12 1 1).text exFloatText fun c => c.props.reverse := by
  intro h
  obtain ⟨t, ht⟩ : ∃ t, (InMsg.propertyRead ⟨7, none⟩ 0 12 1 1).text exFloatText (fun c => c.props.reverse) = .ok t := ⟨_, rfl⟩
  rw [ht] at h
  obtain ⟨a, ha, -⟩ := (c91_same exFloatTexts exOrderOk (m := .propertyRead ⟨7, none⟩ 0 12 1 1)
    (m' := .propertyRead ⟨7, none⟩ 0 121 1 1) trivial trivial trivial trivial ht).1 h
  exact absurd (InMsg.propertyRead.inj ha).2.2.1 (by decide)

/-! ## The text and the frame -/

/-- Where the text is made, and where it raises. -/
theorem c91_raises (fr : PyFloat → List Char) {order : DptClass → List DptProp} (ho : OrderOk order) (m : InMsg) :
    (∃ t, m.text fr order = .ok t ∧ Client.formatIn m = .ok ()) ∨
      (m.text fr order = .error .valueError ∧ Client.formatIn m = .error .valueError) := by
  cases m with
  | groupWriteReq a d =>
    unfold InMsg.text Client.formatIn
    dsimp only
    rcases text_repr fr ho d with ⟨t, h1, h2⟩ | ⟨h1, h2⟩
    · exact .inl ⟨_, by rw [h1], h2⟩
    · exact .inr ⟨by rw [h1], h2⟩
  | groupWriteInd a d =>
    unfold InMsg.text Client.formatIn
    dsimp only
    rcases text_repr fr ho d with ⟨t, h1, h2⟩ | ⟨h1, h2⟩
    · exact .inl ⟨_, by rw [h1], h2⟩
    · exact .inr ⟨by rw [h1], h2⟩
  | _ =>
    left
    unfold InMsg.text
    exact ⟨_, rfl, rfl⟩

/-- A write of a datapoint that cannot be described raises before anything is sent. -/
example : (InMsg.groupWriteReq ⟨7, none⟩ ⟨.setupClima, 0x09000000⟩).text exFloatText (fun c => c.props.reverse) = .error .valueError := by
  rcases c91_raises exFloatText exOrderOk (.groupWriteReq ⟨7, none⟩ ⟨.setupClima, 0x09000000⟩) with ⟨t, -, h⟩ | ⟨h, -⟩
  · exact absurd h (by decide)
  · exact h

/-- What is encoded has no spaces in the data of a property. -/
theorem encode_spaceless {m : InMsg} {s : State} {f : Msg} (h : (encodeMsg m s).1 = .ok f) : Spaceless m := by
  cases m with
  | propertyWrite a oi pid n si data =>
    change (propertyWriteEncode a oi pid n si data s).1 = .ok f at h
    unfold propertyWriteEncode at h
    cases hd : stringToOctets data with
    | error e => simp [hd] at h
    | ok d =>
      intro hm
      exact absurd (stringToOctets_ok_digits hd ' ' hm) (by decide)
  | _ => trivial

theorem dictGet_value {α : Type} {a a' : Asap} (h : a.value = a'.value) (l : List (Asap × α)) :
    dictGet Asap.eq l a = dictGet Asap.eq l a' := by
  induction l with
  | nil => rfl
  | cons p l ih =>
    have he : Asap.eq p.1 a = Asap.eq p.1 a' := by unfold Asap.eq; rw [h]
    simp only [dictGet, he, ih]

/-- The name of an ASAP does not matter to the encoder. -/
theorem group_value (k : EncKind) {a a' : Asap} (h : a.value = a'.value) (s : State) (m : Msg) (x : Option Nat)
    (t : Option AddressType) : tDataGroupEncode k { s with asap := some a, apci := x, addressType := t } m =
      tDataGroupEncode k { s with asap := some a', apci := x, addressType := t } m := by
  unfold tDataGroupEncode nDataGroupEncode State.getAddresses State.getTsaps AssocTable.getTsaps linkEncode cemiEncode
    cemiReqEncode cemiIndEncode tunnelingReqEncode connectionHeader
  simp only [dictGet_value h]

theorem individual_value (a a' : Asap) (s : State) (m : Msg) (x : Option Nat)
    (t : Option AddressType) : tDataIndividualEncode { s with asap := some a, apci := x, addressType := t } m =
      tDataIndividualEncode { s with asap := some a', apci := x, addressType := t } m := by
  unfold tDataIndividualEncode nDataIndividualEncode linkEncode cemiEncode
    cemiReqEncode tunnelingReqEncode connectionHeader State.tables
  rfl

theorem write_value (k : EncKind) {a a' : Asap} (h : a.value = a'.value) {d d' : Dpt} (hd : d.raw = d'.raw) (s : State) :
    (groupWriteEncode k a d s).1 = (groupWriteEncode k a' d' s).1 := by
  have hg : ({ s with asap := some a, apci := some 0x80, addressType := some .group } : State).getDpt =
      ({ s with asap := some a', apci := some 0x80, addressType := some .group } : State).getDpt := by
    unfold State.getDpt GroupObjectTable.lookup
    simp only [dictGet_value h]
  unfold groupWriteEncode
  simp only [hg, hd]
  cases ({ s with asap := some a', apci := some 0x80, addressType := some .group } : State).getDpt with
  | error e => rfl
  | ok c => exact group_value k h s _ _ _

/-- Messages that say the same and hold the same numbers become the same frame, or raise the same. -/
theorem encode_same {m m' : InMsg} (h : SameRequest m m') (hd : ∀ {a a' d d'}, m = .groupWriteReq a d ∨ m = .groupWriteInd a d →
    m' = .groupWriteReq a' d' ∨ m' = .groupWriteInd a' d' → d.raw = d'.raw) (s : State) :
    (encodeMsg m s).1 = (encodeMsg m' s).1 := by
  cases m with
  | groupRead a =>
    obtain ⟨a', rfl, e⟩ := h
    exact group_value .req e.1 s _ _ _
  | groupWriteReq a d =>
    obtain ⟨a', d', rfl, e, e'⟩ := h
    exact write_value .req e.1 (hd (.inl rfl) (.inl rfl)) s
  | groupWriteInd a d =>
    obtain ⟨a', d', rfl, e, e'⟩ := h
    exact write_value .ind e.1 (hd (.inr rfl) (.inr rfl)) s
  | propertyRead a oi pid n si =>
    obtain ⟨a', rfl, e⟩ := h
    exact individual_value a a' s _ (some 0x3D5) (some .individual)
  | propertyWrite a oi pid n si data =>
    obtain ⟨a', rfl, e⟩ := h
    change (propertyWriteEncode a oi pid n si data s).1 = (propertyWriteEncode a' oi pid n si data s).1
    unfold propertyWriteEncode
    cases stringToOctets data with
    | error e => rfl
    | ok d => exact individual_value a a' s _ (some 0x3D7) (some .individual)
  | connectReq => obtain rfl := h; rfl
  | disconnectReq => obtain rfl := h; rfl
  | connectionstateReq => obtain rfl := h; rfl
  | searchReq => obtain rfl := h; rfl
  | tunnelingAck => obtain rfl := h; rfl

theorem mantissa_raw {raw raw' : Nat} (h : raw < 2 ^ 16) (h' : raw' < 2 ^ 16) (hm : mantissa16 raw = mantissa16 raw')
    (he : exponent16 raw = exponent16 raw') : raw = raw' := by
  unfold mantissa16 at hm
  unfold exponent16 at he
  split_ifs at hm <;> omega

theorem scale_unique {m m' : Int} {e e' : Nat} (h : m * 2 ^ e = m' * 2 ^ e') (hm : m.natAbs ≤ 2047) 
    (hn' : e' = 0 ∨ 1024 ≤ m'.natAbs) (hle : e ≤ e') : m = m' ∧ e = e' := by
  obtain ⟨k, rfl⟩ := Nat.exists_eq_add_of_le hle
  rw [pow_add] at h
  have h2 : m = m' * 2 ^ k := by
    have : (2 : Int) ^ e ≠ 0 := by positivity
    apply mul_right_cancel₀ this
    rw [h]; ring
  cases k with
  | zero => simpa using h2
  | succ k =>
    have h3 : 1024 ≤ m'.natAbs := hn'.resolve_left (by omega)
    have h4 : m.natAbs = m'.natAbs * 2 ^ (k + 1) := by rw [h2, Int.natAbs_mul, Int.natAbs_pow]; rfl
    have h5 : 2 ^ 1 ≤ 2 ^ (k + 1) := Nat.pow_le_pow_right (by norm_num) (by omega)
    have := Nat.mul_le_mul h3 h5
    omega

theorem hundredths_unique {raw raw' : Nat} (h : decode16 raw = decode16 raw') : hundredths raw = hundredths raw' := by
  rw [decode16_hundredths, decode16_hundredths, PyFloat.fin.injEq] at h
  obtain ⟨a1, a2⟩ := hundredths_bound raw
  obtain ⟨b1, b2⟩ := hundredths_bound raw'
  generalize hundredths raw = m at *
  generalize hundredths raw' = n at *
  have inj : ∀ {i j : Nat}, i ≤ 2 ^ 26 → j ≤ 2 ^ 26 → prod i = prod j → i = j := by
    intro i j hi hj hp
    rcases Nat.lt_trichotomy i j with hc | hc | hc
    · exact absurd hp (ne_of_lt (prod_strict hc hj))
    · exact hc
    · exact absurd hp.symm (ne_of_lt (prod_strict hc hi))
  have hp1 := prod_nonneg m.natAbs
  have hp2 := prod_nonneg n.natAbs
  cases hm : neg16 raw <;> cases hn : neg16 raw' <;>
    simp only [hm, hn, Bool.false_eq_true, if_false, if_true, true_iff, false_iff] at a2 b2 h
  · have := inj a1 b1 h
    omega
  · have : 0 < prod n.natAbs := prod_pos (by omega)
    linarith
  · have : 0 < prod m.natAbs := prod_pos (by omega)
    linarith
  · have := inj a1 b1 (neg_injective h)
    omega

/-- Datapoints written as the library writes them that show the same are the same. -/
theorem canonical_unique {d d' : Dpt} (hw : d.Wf) (hw' : d'.Wf) (hc : Canonical d) (hc' : Canonical d') (h : SameDisplay d d') :
    d = d' := by
  obtain ⟨c, raw⟩ := d
  obtain ⟨c', raw'⟩ := d'
  obtain ⟨e, h⟩ := h
  simp only at e h
  subst e
  congr 1
  unfold Canonical at hc hc'
  simp only at hc hc'
  replace hw := wf_iff.1 hw
  replace hw' := wf_iff.1 hw'
  cases hk : c.kind with
  | float16 =>
    have h16 := kind_float16.2 hk
    have ho : octets c = 2 := by revert h16; cases c <;> decide
    rw [if_pos h16] at hc hc'
    rw [hk] at h
    rw [ho] at hw hw'
    have hh := hundredths_unique h
    unfold hundredths at hh
    have b1 : (mantissa16 raw).natAbs ≤ 2047 := by
      have : mantissa16 raw ≤ 2047 := by unfold mantissa16; split_ifs <;> omega
      omega
    have b2 : (mantissa16 raw').natAbs ≤ 2047 := by
      have : mantissa16 raw' ≤ 2047 := by unfold mantissa16; split_ifs <;> omega
      omega
    rcases Nat.le_total (exponent16 raw) (exponent16 raw') with hle | hle
    · obtain ⟨e1, e2⟩ := scale_unique hh b1 hc'.2 hle
      exact mantissa_raw hw hw' e1 e2
    · obtain ⟨e1, e2⟩ := scale_unique hh.symm b2 hc.2 hle
      exact mantissa_raw hw hw' e1.symm e2.symm
  | float32 =>
    have h32 := kind_float32.2 hk
    have h16 : ¬ isFloat16 c = true := fun e => by rw [kind_float16.1 e] at hk; cases hk
    rw [if_neg h16, if_pos h32] at hc hc'
    rw [hk] at h
    rw [octets_float32 hk] at hw hw'
    have one : ∀ {raw : Nat}, raw < 2 ^ (8 * 4) → (raw / 2 ^ 23 % 2 ^ 8 ≠ 255 ∨ raw % 2 ^ 23 = 0 ∨ raw = 0x7FC00000) →
        encode32 (decode32 raw) = raw := by
      intro raw hlt hc
      rcases hc with hc | hc | rfl
      · exact encode32_decode32 hlt (.inl (by simpa [getField] using hc))
      · exact encode32_decode32 hlt (.inr (by simpa [getField] using hc))
      · decide
    rw [← one hw hc, ← one hw' hc']
    simp only at h
    rw [h]
  | bits =>
    have h16 : ¬ isFloat16 c = true := fun e => by rw [kind_float16.1 e] at hk; cases hk
    have h32 : ¬ isFloat32 c = true := fun e => by rw [kind_float32.1 e] at hk; cases hk
    rw [if_neg h16, if_neg h32] at hc hc'
    rw [hk] at h
    apply Nat.eq_of_testBit_eq
    intro i
    by_cases hi : i ∈ shownBits c
    · exact h i hi
    · rw [Bool.eq_false_iff.2 (fun e => hi (hc i e)), Bool.eq_false_iff.2 (fun e => hi (hc' i e))]

/-- C91: two messages with the same text become the same frame, if their datapoints are written as the library writes them.
Missing from the full claim: datapoints with bits that are not shown (`c91_hidden_refuted`), and small negative numbers
(`c91_float_refuted`). -/
theorem c91_frame_partial {fr : PyFloat → List Char} (hf : FloatTexts fr) {order : DptClass → List DptProp} (ho : OrderOk order)
    {m m' : InMsg} (hw : WfRequest m) (hw' : WfRequest m') (hc : CanonicalRequest m) (hc' : CanonicalRequest m') {t : List Char}
    (h : m.text fr order = .ok t) (h' : m'.text fr order = .ok t) {s : State} {f f' : Msg}
    (he : (encodeMsg m s).1 = .ok f) (he' : (encodeMsg m' s).1 = .ok f') : f = f' := by
  have hs := (c91_same hf ho (encode_spaceless he) (encode_spaceless he') hw hw' h).1 h'
  have := encode_same hs ?_ s
  · rw [he, he'] at this
    exact Except.ok.inj this
  · intro a a' d d' h1 h2
    rcases h1 with rfl | rfl <;> rcases h2 with rfl | rfl
    · obtain ⟨_, _, e, -, e'⟩ := hs
      cases e
      rw [canonical_unique hw hw' hc hc' e']
    · obtain ⟨_, _, e, -, e'⟩ := hs
      cases e
    · obtain ⟨_, _, e, -, e'⟩ := hs
      cases e
    · obtain ⟨_, _, e, -, e'⟩ := hs
      cases e
      rw [canonical_unique hw hw' hc hc' e']

example {f f' : Msg} (h : (encodeMsg (.groupWriteReq ⟨7, none⟩ ⟨.float16, 0x0C3D⟩) (exState .usbHid)).1 = .ok f)
    (h' : (encodeMsg (.groupWriteReq ⟨7, some ""⟩ ⟨.float16, 0x0C3D⟩) (exState .usbHid)).1 = .ok f') : f = f' := by
  have hw : (⟨.float16, 0x0C3D⟩ : Dpt).Wf := show (0x0C3D : Nat) < 256 ^ 2 by decide
  have hc : Canonical ⟨.float16, 0x0C3D⟩ := ⟨by decide, .inr (by decide)⟩
  have ht : ∃ t, (InMsg.groupWriteReq ⟨7, none⟩ ⟨.float16, 0x0C3D⟩).text exFloatText (fun c => c.props.reverse) = .ok t ∧
      (InMsg.groupWriteReq ⟨7, some ""⟩ ⟨.float16, 0x0C3D⟩).text exFloatText (fun c => c.props.reverse) = .ok t := ⟨_, rfl, rfl⟩
  obtain ⟨t, h1, h2⟩ := ht
  exact c91_frame_partial exFloatTexts exOrderOk (m := .groupWriteReq ⟨7, none⟩ ⟨.float16, 0x0C3D⟩)
    (m' := .groupWriteReq ⟨7, some ""⟩ ⟨.float16, 0x0C3D⟩) hw hw hc hc h1 h2 h h'

/-! ## How the library writes numbers -/

theorem setField_outside {off w i : Nat} (h : i < off ∨ off + w ≤ i) (x : Int) (raw : Nat) :
    (setField off w x raw).testBit i = raw.testBit i :=
  getField_bits.1 (getField_setField_disjoint (off' := i) (w' := 1) (by omega) x raw) i (by omega) (by omega)

theorem canonical_bits {c : DptClass} (hk : c.kind = .bits) {raw : Nat} :
    Canonical ⟨c, raw⟩ ↔ ∀ i, raw.testBit i = true → i ∈ shownBits c := by
  unfold Canonical
  rw [if_neg (fun e => by rw [kind_float16.1 e] at hk; cases hk), if_neg (fun e => by rw [kind_float32.1 e] at hk; cases hk)]

theorem canonical_zero (c : DptClass) : Canonical ⟨c, 0⟩ := by
  unfold Canonical
  simp only
  split_ifs
  · exact ⟨by decide, .inl (by decide)⟩
  · exact .inl (by decide)
  · intro i hi
    simp at hi

theorem assign_canonical {d d' : Dpt} {f : String} {v : PyVal} (hc : Canonical d) (hw : f ∉ wholeKeys)
    (h : Dpt.assign f v d = (.ok (), d')) : Canonical d' := by
  obtain ⟨c, raw⟩ := d
  by_cases hf : f ∈ Spec.properties c
  · obtain ⟨p, hp, rfl⟩ := List.mem_map.1 ((props_names c f).1 hf)
    rw [assign_prop hp] at h
    obtain ⟨h1, h2⟩ := setProp_code hp v
    cases hv : valueCode c p.name v with
    | none =>
      obtain ⟨e, he⟩ := h2 hv
      simp only [Dpt.onRaw, he] at h
      cases h
    | some n =>
      simp only [Dpt.onRaw, h1 n hv] at h
      cases h
      have hk : c.kind = .bits := by revert hp; cases c <;> simp [DptClass.kind, DptClass.props]
      rw [canonical_bits hk] at hc ⊢
      intro i hi
      by_cases hr : p.off ≤ i ∧ i < p.off + p.width
      · have := props_shown c p hp (i - p.off) (by omega)
        rwa [show p.off + (i - p.off) = i by omega] at this
      · rw [setField_outside (by omega)] at hi
        exact hc i hi
  · rw [assign_unknown hf hw] at h
    cases h
    exact hc

theorem fields_canonical {l : List (String × PyVal)} (hw : ∀ kv ∈ l, kv.1 ∉ wholeKeys) {d d' : Dpt} (hc : Canonical d)
    (h : Py.forEach l (fun kv => Dpt.assign kv.1 kv.2) d = (.ok (), d')) : Canonical d' := by
  induction l generalizing d with
  | nil =>
    cases h
    exact hc
  | cons kv l ih =>
    unfold Py.forEach Py.bind at h
    cases hr : Dpt.assign kv.1 kv.2 d with
    | mk r d1 =>
      rw [hr] at h
      cases r with
      | error e => cases h
      | ok u => exact ih (fun x hx => hw x (by simp [hx])) (assign_canonical hc (hw kv (by simp)) hr) h

/-- C91: the factory given fields other than the whole number makes datapoints written in that way. -/
theorem c91_fields {name : String} {l : List (String × PyVal)} (hw : ∀ kv ∈ l, kv.1 ∉ wholeKeys) {d : Dpt}
    (h : Dpt.make name l = .ok d) : Canonical d := by
  unfold Dpt.make at h
  cases hn : DptClass.ofName name with
  | none => simp [hn] at h
  | some c =>
    rw [hn] at h
    simp only at h
    cases hr : Py.forEach l (fun kv => Dpt.assign kv.1 kv.2) (Dpt.new c) with
    | mk r d1 =>
      rw [hr] at h
      cases r with
      | error e => cases h
      | ok u =>
        cases h
        exact fields_canonical hw (canonical_zero c) hr

example : Canonical ⟨.vimarScene, 0xC5⟩ :=
  c91_fields (name := "DPTVimarScene") (l := [("index", .int 5), ("colour", .str "red"), ("command", .str "identifica")])
    (by decide) (by decide)

theorem int_float {n : Int} {f : PyFloat} (h : intToFloat n = .ok f) : ∃ q : ℚ, f = .fin q ∧ (0 ≤ q ∨ q ≤ -1 / 100) := by
  have hm : (n : ℚ) ≤ -1 → roundBin 53 (-1074) n ≤ -1 := by
    intro hn
    have := roundBin_mono (p := 53) (emin := -1074) (by norm_num) hn
    refine le_trans this (le_of_eq ?_)
    have := roundBin_exact (p := 53) (emin := -1074) (-1) 0 (by norm_num) (by norm_num) (by norm_num)
    simpa using this
  unfold intToFloat fl64 at h
  simp only at h
  split_ifs at h with h1 h2
  · obtain ⟨h3, h4⟩ := h2
    have : n ≤ -1 := by have : n < 0 := by exact_mod_cast h4
                        omega
    have := hm (by exact_mod_cast this)
    rw [h3] at this
    norm_num at this
  · cases h
    refine ⟨_, rfl, ?_⟩
    rcases Int.lt_or_le n 0 with hn | hn
    · right
      have := hm (by exact_mod_cast (show n ≤ -1 by omega))
      linarith
    · exact .inl (roundBin_nonneg (by exact_mod_cast hn))

theorem encode16_canonical {d r : Dpt} (h : d.cls.kind = .float16) {q : ℚ} (hq : 0 ≤ q ∨ q ≤ -1 / 100)
    (hr : Dpt.encode (.float (.fin q)) d = (.ok (), r)) : Canonical r := by
  obtain ⟨h6, k, k1, k2, k3, rfl⟩ := encode16_accepted h hr
  have hpos : decide (q < 0) = true → 1 ≤ mantissa0 q / 2 ^ k := by
    intro hn
    have hn : q < 0 := by simpa using hn
    exact (normalise_bound k2 k3).2.1 (mantissa0_pos h6 (hq.resolve_left (not_le.2 hn)))
  obtain ⟨f1, f2, f3, -⟩ := store16_fields (neg := decide (q < 0)) k2 k1 d.raw
  rw [if_neg (by rintro ⟨h1, h2⟩; have := hpos h1; omega)] at f3
  unfold Canonical
  rw [if_pos (kind_float16.2 h)]
  unfold mag16 at f3
  simp only
  refine ⟨by omega, ?_⟩
  rcases k3 with rfl | k3
  · exact .inl f2
  · right
    rw [f3]
    have : k ≠ 0 := by
      rintro rfl
      omega
    obtain ⟨j, rfl⟩ := Nat.exists_eq_succ_of_ne_zero this
    simp only [Nat.succ_eq_add_one, Nat.add_sub_cancel] at k3 ⊢
    rw [pow_succ, ← Nat.div_div_eq_div_mul]
    omega

theorem encode32_canonical {d : Dpt} (h : d.cls.kind = .float32) (f : PyFloat) : Canonical ⟨d.cls, encode32 f⟩ := by
  unfold Canonical
  rw [if_neg (fun e => by rw [kind_float16.1 e] at h; cases h), if_pos (kind_float32.2 h)]
  simp only
  cases f with
  | nan => exact .inr (.inr rfl)
  | negZero => exact .inl (by decide)
  | inf n => cases n <;> exact .inr (.inl (by decide))
  | fin q =>
    unfold encode32
    simp only
    by_cases h : (2 : ℚ) ^ (128 : ℕ) ≤ |roundBin 24 (-149) q|
    · rw [if_pos h]
      right; left
      split_ifs <;> norm_num
    · rw [if_neg h]
      obtain ⟨e, m, he, hm, hv⟩ := round32_val (not_le.1 h)
      rw [hv, mag32_val hm]
      left
      split_ifs <;> norm_num at hm ⊢ <;> omega

/-- C91: a float datapoint holding an encoded number is written in that way, if the number is an integer, or not negative,
or at most -0.01, or the float has four octets. -/
theorem c91_number {d r : Dpt} {v : PyVal} (h : Dpt.encode v d = (.ok (), r))
    (hv : isFloat32 d.cls = true ∨ (∃ n, v = .int n) ∨ ∃ q : ℚ, v = .float (.fin q) ∧ (0 ≤ q ∨ q ≤ -1 / 100)) : Canonical r := by
  cases hk : d.cls.kind with
  | bits => unfold Dpt.encode at h; rw [hk] at h; cases h
  | float32 =>
    unfold Dpt.encode at h
    rw [hk] at h
    simp only [Py.bind, Py.lift] at h
    cases hf : Dpt.toFloat v with
    | error e => rw [hf] at h; cases h
    | ok f =>
      rw [hf] at h
      cases h
      exact encode32_canonical hk f
  | float16 =>
    have h32 : ¬ isFloat32 d.cls = true := fun e => by rw [kind_float32.1 e] at hk; cases hk
    rcases hv.resolve_left h32 with ⟨n, rfl⟩ | ⟨q, rfl, hq⟩
    · have : ∃ f, intToFloat n = .ok f := by
        unfold Dpt.encode at h
        rw [hk] at h
        simp only [Py.bind, Py.lift, Dpt.toFloat] at h
        cases hf : intToFloat n with
        | error e => rw [hf] at h; cases h
        | ok f => exact ⟨f, rfl⟩
      obtain ⟨f, hf⟩ := this
      obtain ⟨q, rfl, hq⟩ := int_float hf
      refine encode16_canonical hk hq (d := d) ?_
      rw [← h]
      unfold Dpt.encode
      rw [hk]
      simp only [Py.bind, Py.lift, Dpt.toFloat, hf]
    · exact encode16_canonical hk hq h

/-- -5 in place of whatever a datapoint held before. -/
example : ∃ r, Dpt.encode (.float (.fin (-5))) ⟨.valueTemp, 0x1234⟩ = (.ok (), r) ∧ Canonical r := by
  obtain ⟨r, x, h, -⟩ := c20_partial ⟨.valueTemp, 0x1234⟩ rfl (-5) (by rw [abs_of_neg] <;> norm_num) (.inr (by norm_num))
  exact ⟨r, h, c91_number h (.inr (.inr ⟨-5, rfl, .inr (by norm_num)⟩))⟩

/-! ## Where the texts do not tell -/

theorem envelope_some {s : State} {m m' f : Msg} (h : envelope s m = some f) : ∃ f', envelope s m' = some f' := by
  unfold envelope at h ⊢
  cases hm : s.medium with
  | usbHid => exact ⟨_, rfl⟩
  | tp => exact ⟨_, rfl⟩
  | knxnetIp =>
    rw [hm] at h
    cases hc : s.chan with
    | none => rw [hc] at h; cases h
    | some c => exact ⟨_, rfl⟩

theorem written_unique {x : BitVec 16} {c : DptClass} {n n' : Nat}
    (h : cemi 0x11 [] (writeTelegram x c n) = cemi 0x11 [] (writeTelegram x c n')) : writtenValue c n = writtenValue c n' := by
  have h2 := congrArg (List.drop 10) h
  unfold writtenValue
  unfold writeTelegram at h2
  by_cases hi : inApci c = true
  · simp only [hi, if_true] at h2 ⊢
    simp [cemi, request, Telegram.octets, octetsOf] at h2
    have := congrArg BitVec.toNat h2
    simp only [BitVec.toNat_ofNat] at this
    omega
  · rw [if_neg hi, if_neg hi] at h2
    rw [if_neg hi, if_neg hi]
    simp [cemi, request, Telegram.octets, octetsOf] at h2
    rw [← number_octetsOf, ← number_octetsOf, h2]

/-- Once a write goes out, another number goes out too, in the same frame only if it is the same in the bits sent. -/
theorem write_other {s : State} {a : AssocTable} {g : GroupObjectTable} {asap : Asap} {d : Dpt} {c : DptClass} {f : Msg}
    (ha : s.assoc = some a) (hg : s.got = some g) (hc : typeIn g asap.value = some c)
    (hne : addressesOf a.absDict asap.value ≠ []) (h : (encodeMsg (.groupWriteReq asap d) s).1 = .ok f) (d' : Dpt) :
    ∃ f', (encodeMsg (.groupWriteReq asap d') s).1 = .ok f' ∧ (f' = f → writtenValue c d'.raw = writtenValue c d.raw) := by
  obtain ⟨a1, g1, c1, as, ha1, hg1, hc1, hs, hx⟩ := write_frame h
  rw [ha] at ha1; cases ha1
  rw [hg] at hg1; cases hg1
  rw [hc] at hc1; cases hc1
  have hl := (send_listed hs).1
  cases as with
  | nil => exact absurd hl.symm hne
  | cons x as =>
    have hf := hx x rfl
    obtain ⟨f', hf'⟩ := envelope_some (m' := cemi 0x11 [] (writeTelegram x c d'.raw)) hf
    refine ⟨f', write_sent ha hg hc hs hf', ?_⟩
    rintro rfl
    exact written_unique (envelope_inj hf' hf)

/-- C91 is false for every write of a datapoint with a bit that is not shown but sent: there is another datapoint with the
same text, whose write has the same text and becomes another frame. -/
theorem c91_hidden_refuted (fr : PyFloat → List Char) {order : DptClass → List DptProp} (ho : OrderOk order) {s : State}
    {a : AssocTable} {g : GroupObjectTable} {asap : Asap} {d : Dpt} {f : Msg} (ha : s.assoc = some a) (hg : s.got = some g)
    (hc : typeIn g asap.value = some d.cls) (hne : addressesOf a.absDict asap.value ≠ [])
    (h : (encodeMsg (.groupWriteReq asap d) s).1 = .ok f) (hw : d.Wf) (hk : d.cls.kind = .bits) {i : Nat}
    (hi : i < if inApci d.cls then 6 else 8 * octets d.cls) (hs : i ∉ shownBits d.cls) :
    ∃ d' f', (InMsg.groupWriteReq asap d').text fr order = (InMsg.groupWriteReq asap d).text fr order ∧ d'.Wf ∧
      (encodeMsg (.groupWriteReq asap d') s).1 = .ok f' ∧ f' ≠ f := by
  have hi8 : i < 8 * octets d.cls := by
    revert hi
    cases d.cls <;> simp [inApci, octets] <;> omega
  have hw' : (⟨d.cls, d.raw ^^^ 2 ^ i⟩ : Dpt).Wf :=
    wf_iff.2 (Nat.xor_lt_two_pow (wf_iff.1 hw) (Nat.pow_lt_pow_right (by decide) hi8))
  have ht : (⟨d.cls, d.raw ^^^ 2 ^ i⟩ : Dpt).text fr order = d.text fr order := by
    refine dpt_text_congr fr ho hw' hw ⟨rfl, ?_⟩
    simp only
    rw [hk]
    intro j hj
    have hne : i ≠ j := fun e => hs (e ▸ hj)
    rw [Nat.testBit_xor, Nat.testBit_two_pow_of_ne hne, Bool.xor_false]
  obtain ⟨f', hf', hd⟩ := write_other ha hg hc hne h ⟨d.cls, d.raw ^^^ 2 ^ i⟩
  refine ⟨_, f', ?_, hw', hf', fun e => ?_⟩
  · unfold InMsg.text
    dsimp only
    rw [ht]
  · have h1 := hd e
    unfold writtenValue at h1
    simp only at h1
    have h2 : (d.raw ^^^ 2 ^ i) % 2 ^ (if inApci d.cls then 6 else 8 * octets d.cls) =
        d.raw % 2 ^ (if inApci d.cls then 6 else 8 * octets d.cls) := by
      split_ifs at h1 ⊢
      · exact Nat.add_left_cancel h1
      · rw [pow_mul]
        exact h1
    have h3 := congrArg (fun n => n.testBit i) h2
    simp only [Nat.testBit_mod_two_pow, hi, decide_true, Bool.true_and, Nat.testBit_xor, Nat.testBit_two_pow_self] at h3
    cases d.raw.testBit i <;> simp at h3

/-- A switch with its bit 3 set and one without. -/
example : ∃ d' f', (InMsg.groupWriteReq ⟨3, none⟩ d').text exFloatText (fun c => c.props.reverse) =
      (InMsg.groupWriteReq ⟨3, none⟩ ⟨.switch, 1⟩).text exFloatText (fun c => c.props.reverse) ∧ d'.Wf ∧
    (encodeMsg (.groupWriteReq ⟨3, none⟩ d') (exState .usbHid)).1 = .ok f' ∧
    f' ≠ usbReport (cemi 0x11 [] (writeTelegram 0x0E89 .switch 1)) :=
  c91_hidden_refuted exFloatText exOrderOk (a := (AssocTable.init exAt []).2.afterAll exOps)
    (g := exGops.foldl GroupObjectTable.after []) rfl rfl (by decide +kernel) (by decide +kernel) (by decide +kernel)
    (show (1 : Nat) < 256 ^ 1 by decide) rfl (i := 3) (by decide) (by decide)

theorem mantissa0_range {q : ℚ} (h1 : -2049 / 100 ≤ q) (h2 : q ≤ -20481 / 1000) : 2048 ≤ mantissa0 q ∧ mantissa0 q ≤ 2049 := by
  have habs : |q| = -q := abs_of_neg (by linarith)
  have hle : |q| ≤ 10 ^ 6 := by rw [habs]; norm_num; linarith
  obtain ⟨m1, -, m3⟩ := mantissa0_bounds hle
  rw [habs] at m1
  constructor
  · apply m3
    have hs := (scaled16_bounds hle).1
    rw [habs, abs_le] at hs
    have h3 := rhe_mono (a := 204800) (b := 100 * |scaled16 q|) (by norm_num at *; linarith)
    have h4 : rhe 204800 = 204800 := by
      have := rhe_int 204800
      exact_mod_cast this
    rw [h4] at h3
    have : ((204800 : Int) : ℚ) ≤ (rhe (100 * |scaled16 q|) : Int) := by exact_mod_cast h3
    push_cast at this ⊢
    linarith
  · have h5 : (mantissa0 q : ℚ) < 2050 := lt_of_le_of_lt m1 (by linarith)
    have h6 : mantissa0 q < 2050 := by exact_mod_cast h5
    omega

/-- C91 is false for 2 octet floats: a write of any number between -0.0099 and 0 has the same text as a write of any number
between -20.49 and -20.481, and becomes another frame. -/
theorem c91_float_refuted (fr : PyFloat → List Char) {order : DptClass → List DptProp} (ho : OrderOk order) {s : State}
    {a : AssocTable} {g : GroupObjectTable} {asap : Asap} {d : Dpt} (hd : d.Wf) (h16 : isFloat16 d.cls = true)
    (ha : s.assoc = some a) (hg : s.got = some g) (hc : typeIn g asap.value = some d.cls)
    (hne : addressesOf a.absDict asap.value ≠ []) {q q' : ℚ} (hq : -99 / 10000 ≤ q) (hq0 : q < 0) (h1 : -2049 / 100 ≤ q')
    (h2 : q' ≤ -20481 / 1000) {r r' : Dpt} (hr : Dpt.encode (.float (.fin q)) d = (.ok (), r))
    (hr' : Dpt.encode (.float (.fin q')) d = (.ok (), r')) {f f' : Msg}
    (hf : (encodeMsg (.groupWriteReq asap r) s).1 = .ok f) (hf' : (encodeMsg (.groupWriteReq asap r') s).1 = .ok f') :
    (InMsg.groupWriteReq asap r).text fr order = (InMsg.groupWriteReq asap r').text fr order ∧ f ≠ f' := by
  have hk := kind_float16.1 h16
  have ho2 : octets d.cls = 2 := by revert h16; cases d.cls <;> decide
  have hlt := wf_iff.1 hd
  rw [ho2] at hlt
  obtain ⟨-, k, k1, k2, k3, rfl⟩ := encode16_accepted hk hr
  obtain ⟨-, k', k1', k2', k3', rfl⟩ := encode16_accepted hk hr'
  have hm0 : mantissa0 q = 0 := by
    have habs : |q| = -q := abs_of_neg hq0
    have hle : |q| ≤ 10 ^ 6 := by rw [habs]; norm_num; linarith
    have h1 := (scaled16_bounds hle).1
    have h2 := rhe_mono (a := 100 * |scaled16 q|) (b := 99 + 1 / 10 ^ 3)
      (by rw [abs_le, habs] at h1; norm_num at *; linarith)
    have h3 : rhe (99 + 1 / 10 ^ 3) = 99 := by
      apply rhe_near
      rw [abs_lt]
      norm_num
    unfold mantissa0
    omega
  rw [hm0] at k3
  have hk0 : k = 0 := k3.resolve_right (by simp)
  subst hk0
  obtain ⟨e1, e2⟩ := mantissa0_range h1 h2
  have hk1 : k' = 1 := by
    rcases Nat.lt_trichotomy k' 1 with hc | hc | hc
    · have : k' = 0 := by omega
      subst this
      omega
    · exact hc
    · obtain ⟨j, rfl⟩ := Nat.exists_eq_add_of_lt hc
      rcases k3' with h | h
      · omega
      · have h5 : 2 ^ 1 ≤ 2 ^ (1 + j + 1 - 1) := Nat.pow_le_pow_right (by norm_num) (by omega)
        have := Nat.div_le_div_left (a := mantissa0 q') h5 (by norm_num)
        omega
  subst hk1
  have hm1 : mantissa0 q' / 2 ^ 1 = 1024 := by omega
  rw [hm1] at hr' hf'
  rw [hm0] at hr hf
  have n1 : decide (q < 0) = true := by simpa using hq0
  have n2 : decide (q' < 0) = true := by
    have : q' < 0 := by linarith
    simpa using this
  rw [n1] at hf hr
  rw [n2] at hf' hr'
  simp only [Nat.zero_div] at hf hr
  rw [n1, n2, hm1, hm0, Nat.zero_div]
  obtain ⟨f1, f2, f3, f4⟩ := store16_fields (neg := true) (m := 0) (e := 0) (by omega) (by omega) d.raw
  obtain ⟨g1, g2, g3, g4⟩ := store16_fields (neg := true) (m := 1024) (e := 1) (by omega) (by omega) d.raw
  simp only [true_and, if_true] at f3
  rw [if_neg (by simp)] at g3
  generalize store16 true 0 0 d.raw = w at *
  generalize store16 true 1024 1 d.raw = w' at *
  have hw : (⟨d.cls, w⟩ : Dpt).Wf := wf_iff.2 (by rw [ho2]; exact f4 hlt)
  have hw' : (⟨d.cls, w'⟩ : Dpt).Wf := wf_iff.2 (by rw [ho2]; exact g4 hlt)
  have ht : (⟨d.cls, w⟩ : Dpt).text fr order = (⟨d.cls, w'⟩ : Dpt).text fr order := by
    refine dpt_text_congr fr ho hw hw' ⟨rfl, ?_⟩
    simp only
    rw [hk]
    simp only
    rw [decode16_hundredths, decode16_hundredths, hundredths_eq, hundredths_eq, f1, f2, f3, g1, g2, g3]
    norm_num
  refine ⟨?_, ?_⟩
  · unfold InMsg.text
    dsimp only
    rw [ht]
  · rintro rfl
    obtain ⟨f'', hf'', hd⟩ := write_other ha hg hc hne hf ⟨d.cls, w'⟩
    rw [hf'] at hf''
    have h1 := hd (Except.ok.inj hf'').symm
    unfold writtenValue at h1
    have hna : ¬ inApci d.cls = true := by revert h16; cases d.cls <;> decide
    rw [if_neg hna, if_neg hna, ho2] at h1
    simp only at h1
    have := f4 hlt
    have := g4 hlt
    rw [Nat.mod_eq_of_lt (by omega), Nat.mod_eq_of_lt (by omega)] at h1
    subst h1
    omega

/-- -1/256 and -20.484375. -/
example : ∃ (r r' : Dpt) (f f' : Msg), Dpt.encode (.float (.fin (-1 / 256))) ⟨.float16, 0⟩ = (.ok (), r) ∧
    Dpt.encode (.float (.fin (-1311 / 64))) ⟨.float16, 0⟩ = (.ok (), r') ∧
    (encodeMsg (.groupWriteReq ⟨7, none⟩ r) (exState .usbHid)).1 = .ok f ∧
    (encodeMsg (.groupWriteReq ⟨7, none⟩ r') (exState .usbHid)).1 = .ok f' ∧
    (InMsg.groupWriteReq ⟨7, none⟩ r).text exFloatText (fun c => c.props.reverse) =
      (InMsg.groupWriteReq ⟨7, none⟩ r').text exFloatText (fun c => c.props.reverse) ∧ f ≠ f' := by
  obtain ⟨r, -, h, -⟩ := c20_refuted ⟨.float16, 0⟩ rfl (-1 / 256) (by norm_num) (by norm_num)
  obtain ⟨r', -, h', -⟩ := c20_partial ⟨.float16, 0⟩ rfl (-1311 / 64) (by rw [abs_of_neg] <;> norm_num) (.inr (by norm_num))
  have hs : ∀ d : Dpt, ∃ f, (encodeMsg (.groupWriteReq ⟨7, none⟩ d) (exState .usbHid)).1 = .ok f := fun d =>
    ⟨_, c28_write_succeeds (a := (AssocTable.init exAt []).2.afterAll exOps) (g := exGops.foldl GroupObjectTable.after [])
      (c := .float16) (x := 0x0E89) (as := [0x0001]) rfl rfl (by decide +kernel) (by decide +kernel)
      (by simp only [List.mem_cons, List.not_mem_nil, or_false, forall_eq_or_imp, forall_eq]; decide +kernel) rfl⟩
  obtain ⟨f, hf⟩ := hs r
  obtain ⟨f', hf'⟩ := hs r'
  obtain ⟨h1, h2⟩ := c91_float_refuted exFloatText exOrderOk (d := ⟨.float16, 0⟩) (show (0 : Nat) < 256 ^ 2 by decide) rfl
    (a := (AssocTable.init exAt []).2.afterAll exOps) (g := exGops.foldl GroupObjectTable.after []) rfl rfl
    (by decide +kernel) (by decide +kernel) (by norm_num) (by norm_num) (by norm_num) (by norm_num) h h' hf hf'
  exact ⟨r, r', f, f', h, h', hf, hf', h1, h2⟩

end Knx
