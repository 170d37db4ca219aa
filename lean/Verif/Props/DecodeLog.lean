import Verif.Props.StateText
import Verif.Props.Telegrams
import Verif.Props.Tunnelling
import Verif.Props.Responses
import Verif.Spec.DecodeLog

/-! # C119: the log of the decoders -/

namespace Knx
open Spec

/-! ## Texts -/

theorem discarded_word (v : Display) (logger : String) (t : Telegram) :
    discardedLine v logger (ldataOf t) (payload t) = ⟨logger, .info,
      fill "discarded msg {} source: {} (0x{}), destination: {} (0x{}), address_type: {}".toList
        (payloadWord t ::
          addressFields v.named (decide (128 ≤ t.ctrl2.toNat)) t.source t.destination)⟩ := by
  have hd : destinationWord v.named (ldataOf t).addressType =
      addressKind v.named (decide (128 ≤ t.ctrl2.toNat)) := by
    by_cases h : t.IsGroup
    · rw [addressType_group h, decide_eq_true (show 128 ≤ t.ctrl2.toNat from h)]
      cases v.named <;> rfl
    · rw [addressType_individual h, decide_eq_false (show ¬ 128 ≤ t.ctrl2.toNat from h)]
      cases v.named <;> rfl
  unfold discardedLine
  rw [c115_link, msgRepr_word]
  unfold linkWord addressFields
  rw [hd]
  show LogLine.mk _ _ (_ ++ (payload t).flatMap _ ++ _ ++ _) = _
  rw [show payloadWord t = (payload t).flatMap fun b => hexWord 2 b.toNat from rfl]
  show LogLine.mk _ _ (_ ++ _ ++ _ ++ fill _ [natWord t.source.toNat, hexWord 4 t.source.toNat, natWord t.destination.toNat,
    hexWord 4 t.destination.toNat, _]) = _
  generalize List.flatMap _ (payload t) = x0
  generalize natWord t.source.toNat = x1, hexWord 4 t.source.toNat = x2, natWord t.destination.toNat = x3,
    hexWord 4 t.destination.toNat = x4
  generalize addressKind v.named (decide (128 ≤ t.ctrl2.toNat)) = x5
  rewrite [fill_pieces "source: {} (0x{}), destination: {} (0x{}), address_type: {}" [x1, x2, x3, x4, x5] "source: ".toList
      [" (0x".toList, "), destination: ".toList, " (0x".toList, "), address_type: ".toList, []]
      (by decide +kernel) (by decide +kernel) (by rfl),
    fill_pieces "discarded msg {} source: {} (0x{}), destination: {} (0x{}), address_type: {}" [x0, x1, x2, x3, x4, x5]
      "discarded msg ".toList
      [" ".toList ++ "source: ".toList, " (0x".toList, "), destination: ".toList, " (0x".toList, "), address_type: ".toList, []]
      (by decide +kernel) (by decide +kernel) (by rfl)]
  generalize "source: ".toList = a1, " (0x".toList = a2, "), destination: ".toList = a3, "), address_type: ".toList = a4,
    "discarded msg ".toList = a5, " ".toList = a6
  simp

/-- What is shown of a telegram before what it was decoded to. -/
theorem received_word (v : Display) (t : Telegram) (x : List Char) :
    "received msg ".toList ++ msgRepr (payload t) ++ " ".toList ++ (ldataOf t).text v.named ++ " ".toList ++ x =
      fill "received msg {} source: {} (0x{}), destination: {} (0x{}), address_type: {} {}".toList
        (payloadWord t ::
          addressFields v.named (decide (128 ≤ t.ctrl2.toNat)) t.source t.destination ++ [x]) := by
  have h := discarded_word v "" t
  unfold discardedLine at h
  injection h with _ _ h
  unfold addressFields at h ⊢
  generalize payloadWord t = x0 at h ⊢
  generalize natWord t.source.toNat = x1, hexWord 4 t.source.toNat = x2, natWord t.destination.toNat = x3,
    hexWord 4 t.destination.toNat = x4 at h ⊢
  generalize addressKind v.named (decide (128 ≤ t.ctrl2.toNat)) = x5 at h ⊢
  rewrite [fill_pieces "discarded msg {} source: {} (0x{}), destination: {} (0x{}), address_type: {}" [x0, x1, x2, x3, x4, x5]
      "discarded msg ".toList
      [" ".toList ++ "source: ".toList, " (0x".toList, "), destination: ".toList, " (0x".toList, "), address_type: ".toList, []]
      (by decide +kernel) (by decide +kernel) (by rfl)] at h
  simp only [List.cons_append, List.nil_append]
  rewrite [fill_pieces "received msg {} source: {} (0x{}), destination: {} (0x{}), address_type: {} {}" [x0, x1, x2, x3, x4, x5, x]
      "received msg ".toList
      [" ".toList ++ "source: ".toList, " (0x".toList, "), destination: ".toList, " (0x".toList, "), address_type: ".toList, " ".toList, []]
      (by decide +kernel) (by decide +kernel) (by rfl)]
  generalize "source: ".toList = a1, " (0x".toList = a2, "), destination: ".toList = a3, "), address_type: ".toList = a4,
    "discarded msg ".toList = a5, " ".toList = a6, "received msg ".toList = a7 at h ⊢
  simp only [List.append_assoc, List.append_cancel_left_eq] at h ⊢
  simp only [← List.append_assoc] at h ⊢
  rw [h]
  simp

/-- Messages as the application layer makes them: values for ASAPs, or one property. -/
def FromTelegram (ms : List OutMsg) : Prop :=
  (∀ m ∈ ms, ∃ svc conf a d, m = .group svc conf a d) ∨
    ∃ svc conf oi pid noe si data, ms = [.property svc conf ⟨0, none⟩ oi pid noe si data] ∧ (data = none ↔ svc = .read)

theorem asapItems_word {ms : List OutMsg} (h : ∀ m ∈ ms, ∃ svc conf a d, m = .group svc conf a d) :
    asapItems ms = sepBy ", " (ms.filterMap fun m => (asapOf m).map asapWord) ++ "]".toList := by
  induction ms with
  | nil => rfl
  | cons m ms ih =>
    obtain ⟨svc, conf, a, d, rfl⟩ := h m (List.mem_cons_self ..)
    have ih := ih fun m hm => h m (List.mem_cons_of_mem _ hm)
    cases ms with
    | nil =>
      show asapText a ++ _ = asapWord a ++ [] ++ _
      rw [asapText_word, List.append_nil]
    | cons m2 ms =>
      show asapText a ++ ", ".toList ++ asapItems (m2 :: ms) = _
      obtain ⟨svc2, conf2, a2, d2, rfl⟩ := h m2 (by simp)
      rw [ih, asapText_word]
      generalize "]".toList = x
      simp [asapOf, sepBy]

theorem receivedLine_word {v : Display} (ho : OrderOk v.order) (logger : String) (t : Telegram) {ms : List OutMsg} (h : FromTelegram ms) :
    receivedLine v logger (ldataOf t) (payload t) ms = match logFirst ms with
      | .error e => .error e
      | .ok () => .ok ⟨logger, .debug,
        fill "received msg {} source: {} (0x{}), destination: {} (0x{}), address_type: {} {}".toList
        (payloadWord t ::
          addressFields v.named (decide (128 ≤ t.ctrl2.toNat)) t.source t.destination ++ [outcomeWord v ms])⟩ := by
  rw [← received_word]
  rcases h with h | ⟨svc, conf, oi, pid, noe, si, data, rfl, hd⟩
  · cases ms with
    | nil =>
      show Except.ok _ = Except.ok _
      have e : outcomeWord v [] = "[".toList ++ "]".toList := by
        show fill "[{}]".toList [[]] = _
        decide +kernel
      rw [e]
    | cons m ms =>
      have hi := asapItems_word h
      obtain ⟨svc, conf, a, d, rfl⟩ := h m (List.mem_cons_self ..)
      unfold receivedLine logFirst outcomeWord
      simp only [List.head?_cons, Option.bind_some, datapointOf]
      rcases text_repr v.floats ho d with ⟨x, h1, h2⟩ | ⟨h1, h2⟩
      · rw [h1, h2]
        simp only
        rw [hi]
        generalize sepBy ", " _ = y
        rewrite [fill_pieces "{} asaps [{}]" [x, y] [] [" asaps ".toList ++ "[".toList, "]".toList]
          (by decide +kernel) (by decide +kernel) (by rfl)]
        generalize " asaps ".toList = a1, "[".toList = a2, "]".toList = a3
        simp
      · rw [h1, h2]
  · have h1 := c114_received (name := fun _ => none) (m := .property svc conf ⟨0, none⟩ oi pid noe si data) ⟨rfl, hd⟩ v.floats v.order
    simp only [datapointOf] at h1
    have h2 := c114_list v.floats v.order (.cons h1 .nil)
    unfold receivedLine logFirst
    simp only
    rw [h2]
    rfl

/-! ## Results -/

theorem groupService_form {svc : Svc} {k : Kind} {t : Tables} {l : LData} {m : Msg} {ms : List OutMsg}
    (h : groupServiceDecode svc k t l m = .ok ms) : FromTelegram ms := by
  unfold groupServiceDecode at h
  split at h
  · cases h
  · cases h
    refine .inl fun m hm => ?_
    rw [List.mem_map] at hm
    obtain ⟨g, -, rfl⟩ := hm
    exact ⟨_, _, _, _, rfl⟩

theorem propertyService_form {svc : Svc} {k : Kind} {l : LData} {m : Msg} {ms : List OutMsg}
    (h : propertyServiceDecode svc k l m = .ok ms) : FromTelegram ms := by
  unfold propertyServiceDecode at h
  split at h
  · cases h
  · cases h
    refine .inr ⟨_, _, _, _, _, _, _, rfl, ?_⟩
    by_cases hs : svc = .read
    · simp [hs]
    · simp [hs]

theorem fromTelegram_nil : FromTelegram [] := .inl (by simp)

theorem propertyDispatch_form {k : Kind} {l : LData} {m : Msg} {ms : List OutMsg} (h : propertyDispatch k l m = .ok ms) :
    FromTelegram ms := by
  unfold propertyDispatch at h
  split_ifs at h
  · exact propertyService_form h
  · exact propertyService_form h
  · exact propertyService_form h
  · cases h
    exact fromTelegram_nil

theorem propertyDispatch_log {k : Kind} {l : LData} {m : Msg} {ms : List OutMsg} (h : propertyDispatch k l m = .ok ms) :
    logFirst ms = .ok () := by
  unfold propertyDispatch propertyServiceDecode at h
  split_ifs at h <;> first | (split at h <;> first | (cases h; done) | (cases h; rfl)) | (cases h; rfl)

/-! ## The layers -/

/-- Whether messages of this kind are confirmations. -/
def Kind.confirms (k : Kind) : Bool := match k with | .con => true | .ind => false

theorem groupModule_word (k : Kind) : "layer.transport.t_data_group." ++ k.module = transportModule true k.confirms := by
  cases k <;> decide +kernel

theorem individualModule_word (k : Kind) : "layer.transport.t_data_individual." ++ k.module = transportModule false k.confirms := by
  cases k <;> decide +kernel

/-- Logging a result. -/
def afterLog (v : Display) (logger : String) (t : Telegram) (c : LoggedState) (r : Except Err (List OutMsg)) :
    Except Err (List OutMsg) × LoggedState :=
  match r with
  | .error e => (.error e, c)
  | .ok ms =>
    match logFirst ms with
    | .error e => (.error e, c)
    | .ok () => (.ok ms, { c with log := c.log ++ [⟨logger, .debug,
        fill "received msg {} source: {} (0x{}), destination: {} (0x{}), address_type: {} {}".toList
        (payloadWord t ::
          addressFields v.named (decide (128 ≤ t.ctrl2.toNat)) t.source t.destination ++ [outcomeWord v ms])⟩] })

theorem logResult_eq {v : Display} (ho : OrderOk v.order) (logger : String) (t : Telegram) {r : Except Err (List OutMsg)}
    (hr : ∀ ms, r = .ok ms → FromTelegram ms) (c : LoggedState) :
    logResult v logger (ldataOf t) (payload t) r c = afterLog v logger t c r := by
  cases r with
  | error e => rfl
  | ok ms =>
    simp only [logResult, Py.bind, Py.lift, afterLog]
    rw [receivedLine_word ho logger t (hr ms rfl)]
    rcases logFirst ms with e | u <;> rfl

theorem groupKnown_iff (a : AssocTable) (x : BitVec 16) : groupKnown a x ↔ x ∈ a.at_.gas.map Addr.fs := by
  unfold groupKnown
  rw [List.mem_map]

theorem group_logged {v : Display} (ho : OrderOk v.order) (k : Kind) (tb : Tables) (t : Telegram) (hg : 128 ≤ t.ctrl2.toNat)
    (hd : t.tpci.toNat < 4) (h0 : t.destination ≠ 0) (c : LoggedState) :
    tDataGroupLog v k tb (ldataOf t) (payload t) c = (tDataGroupDecode k tb (ldataOf t) (payload t),
      { c with log := c.log ++
          telegramLines v k.confirms tb.assoc (tDataGroupDecode k tb (ldataOf t) (payload t)).toOption t }) := by
  unfold tDataGroupLog tDataGroupDecode telegramLines
  simp only [Tables.getTsap, decide_eq_true hg, h0, if_false, and_false, or_false,
    show ¬ 4 ≤ t.tpci.toNat by omega]
  cases ha : tb.assoc with
  | none =>
    show (_, c) = (_, { c with log := c.log ++ [] })
    rw [List.append_nil]
  | some a =>
    simp only [Py.bind, Py.lift]
    rw [show (ldataOf t).destination = t.destination from rfl]
    by_cases hk : groupKnown a t.destination
    · obtain ⟨n, hn⟩ := getTsap_group ((groupKnown_iff ..).1 hk)
      rw [if_neg (show ¬ forOthers a true k.confirms t.source t.destination from fun h => h hk)]
      rw [hn]
      simp only
      rw [logResult_eq ho]
      · generalize (if (ldataOf t).apciFull = 0 then _ else _ : Except Err (List OutMsg)) = r
        unfold afterLog
        rw [groupModule_word, decide_eq_true hg]
        rcases r with e | ms
        · show (_, c) = (_, { c with log := c.log ++ [] })
          rw [List.append_nil]
        · simp only
          rcases logFirst ms with e | u
          · show (_, c) = (_, { c with log := c.log ++ [] })
            rw [List.append_nil]
          · rfl
      · intro ms hms
        split_ifs at hms
        · exact groupService_form hms
        · exact groupService_form hms
        · exact groupService_form hms
        · cases hms
          exact fromTelegram_nil
    · rw [if_pos (show forOthers a true k.confirms t.source t.destination from hk)]
      have hx := discarded_word v (transportModule true k.confirms) t
      rw [decide_eq_true hg] at hx
      rcases getTsap_foreign (a := a) (d := t.destination) (fun h => hk ((groupKnown_iff ..).2 h)) with h | h
      all_goals
        rw [h]
        simp only
        rw [groupModule_word, hx]
        rfl

theorem individual_logged {v : Display} (ho : OrderOk v.order) (k : Kind) (tb : Tables) (t : Telegram) (hg : ¬ 128 ≤ t.ctrl2.toNat)
    (hd : t.tpci.toNat < 4) (c : LoggedState) :
    tDataIndividualLog v k tb (ldataOf t) (payload t) c = (tDataIndividualDecode k tb (ldataOf t) (payload t),
      { c with log := c.log ++
          telegramLines v k.confirms tb.assoc (tDataIndividualDecode k tb (ldataOf t) (payload t)).toOption t }) := by
  have hx := discarded_word v (transportModule false k.confirms) t
  have hy := logResult_eq ho (transportModule false k.confirms) t (r := propertyDispatch k (ldataOf t) (payload t))
    (fun ms h => propertyDispatch_form h) c
  have hz : ∀ ms, propertyDispatch k (ldataOf t) (payload t) = .ok ms → logFirst ms = .ok () := fun ms h => propertyDispatch_log h
  unfold afterLog at hy
  rw [decide_eq_false hg] at hx hy
  unfold telegramLines
  simp only [decide_eq_false hg, Bool.false_eq_true, false_and, or_false, show ¬ 4 ≤ t.tpci.toNat by omega, if_false]
  rw [← individualModule_word] at hx hy ⊢
  have own : ∀ {p : Prop} [Decidable p] {q : Prop} [Decidable q], (p ↔ ¬ q) →
      (if p then logResult v ("layer.transport.t_data_individual." ++ k.module) (ldataOf t) (payload t)
          (propertyDispatch k (ldataOf t) (payload t)) c
        else Py.bind (LoggedState.write (discardedLine v ("layer.transport.t_data_individual." ++ k.module) (ldataOf t) (payload t)))
          (fun _ => Py.pure []) c) =
      ((if p then propertyDispatch k (ldataOf t) (payload t) else .ok []),
        { c with log := c.log ++ (if q then
          [⟨"layer.transport.t_data_individual." ++ k.module, .info,
            fill "discarded msg {} source: {} (0x{}), destination: {} (0x{}), address_type: {}".toList
              (payloadWord t ::
                addressFields v.named false t.source t.destination)⟩]
          else match (if p then propertyDispatch k (ldataOf t) (payload t) else .ok []).toOption with
          | none => []
          | some ms =>
            [⟨"layer.transport.t_data_individual." ++ k.module, .debug,
              fill "received msg {} source: {} (0x{}), destination: {} (0x{}), address_type: {} {}".toList
                (payloadWord t ::
                addressFields v.named false t.source t.destination ++ [outcomeWord v ms])⟩]) }) := by
    intro p _ q _ h
    by_cases hp : p
    · simp only [if_pos hp, if_neg (h.1 hp)]
      rw [hy]
      cases hr : propertyDispatch k (ldataOf t) (payload t) with
      | error e =>
        show (_, c) = (_, { c with log := c.log ++ [] })
        rw [List.append_nil]
      | ok ms =>
        simp only
        rw [hz ms hr]
        rfl
    · simp only [if_neg hp, if_pos (not_not.1 (fun hq => hp (h.2 hq)))]
      rw [hx]
      rfl
  cases k with
  | con =>
    unfold tDataIndividualLog tDataIndividualDecode
    simp only [Tables.getTsap]
    cases ha : tb.assoc with
    | none =>
      show (_, c) = (_, { c with log := c.log ++ [] })
      rw [List.append_nil]
    | some a =>
      have hp : (a.getTsap ⟨0, t.destination⟩ = some 0) ↔ ¬ forOthers a false Kind.con.confirms t.source t.destination := by
        show _ ↔ ¬ (groupKnown a t.destination ∨ t.destination ≠ a.at_.ind.fs)
        rw [groupKnown_iff]
        unfold AssocTable.getTsap AddressTable.getTsap
        cases hi : AddressTable.index a.at_.gas ⟨0, t.destination⟩ with
        | some i =>
          have : t.destination ∈ a.at_.gas.map Addr.fs := by
            by_contra hn
            rw [AddressTable.index_none.2 hn] at hi
            cases hi
          simp [this]
        | none =>
          have := AddressTable.index_none.1 hi
          simp only at this
          simp [this, Addr.eq]
      simp only [Py.bind, Py.lift, decide_eq_true_eq]
      exact (apply_ite (fun f : Py LoggedState (List OutMsg) => f c) ..).trans (own hp)
  | ind =>
    unfold tDataIndividualLog tDataIndividualDecode
    simp only [Tables.individualAddress]
    cases ha : tb.assoc with
    | none =>
      show (_, c) = (_, { c with log := c.log ++ [] })
      rw [List.append_nil]
    | some a =>
      have hp : (t.source = a.ind.fs) ↔ ¬ forOthers a false Kind.ind.confirms t.source t.destination := by
        show _ ↔ ¬ (t.source ≠ a.at_.ind.fs)
        rw [not_not]
        rfl
      simp only [Py.bind, Py.lift, decide_eq_true_eq]
      exact (apply_ite (fun f : Py LoggedState (List OutMsg) => f c) ..).trans (own hp)

/-- The messages of a result, if there is one. -/
def resultOf (r : Except Err Res) : Option (List OutMsg) := r.toOption.map messages

theorem lData_logged {v : Display} (ho : OrderOk v.order) (k : Kind) (tb : Tables) (t : Telegram) (c : LoggedState) :
    lDataLog v k tb (ldataOf t) (payload t) c = (lDataDecode k tb (ldataOf t) (payload t),
      { c with log := c.log ++
          telegramLines v k.confirms tb.assoc (resultOf (lDataDecode k tb (ldataOf t) (payload t))) t }) := by
  have none : ∀ (x : Except Err Res) r, (4 ≤ t.tpci.toNat ∨ decide (128 ≤ t.ctrl2.toNat) = true ∧ t.destination = 0) →
      (x, c) = (x, { c with log := c.log ++ telegramLines v k.confirms tb.assoc r t }) := by
    intro x r h
    rw [show telegramLines v k.confirms tb.assoc r t = [] from if_pos h, List.append_nil]
  unfold lDataLog lDataDecode
  by_cases hg : t.IsGroup
  · rw [addressType_group hg]
    simp only
    rw [show (ldataOf t).destination = t.destination from rfl]
    by_cases h0 : t.destination = 0
    · rw [if_neg (not_not.2 h0), if_neg (not_not.2 h0)]
      exact none _ _ (.inr ⟨decide_eq_true hg, h0⟩)
    · rw [if_pos h0, if_pos h0]
      unfold nDataGroupLog nDataGroupDecode
      by_cases hd : t.IsData
      · rw [if_pos ((nsdu_group hg h0).2 hd), if_pos ((nsdu_group hg h0).2 hd)]
        simp only [Py.bind]
        rw [group_logged ho k tb t hg hd h0]
        rcases tDataGroupDecode k tb (ldataOf t) (payload t) with e | ms <;> rfl
      · rw [if_neg fun h => hd ((nsdu_group hg h0).1 h), if_neg fun h => hd ((nsdu_group hg h0).1 h)]
        exact none _ _ (.inl (not_lt.1 hd))
  · rw [addressType_individual hg]
    simp only
    unfold nDataIndividualLog nDataIndividualDecode
    by_cases hd : t.IsData
    · rw [if_pos ((nsdu_individual hg).2 hd), if_pos ((nsdu_individual hg).2 hd)]
      simp only [Py.bind]
      rw [individual_logged ho k tb t hg hd]
      rcases tDataIndividualDecode k tb (ldataOf t) (payload t) with e | ms <;> rfl
    · rw [if_neg fun h => hd ((nsdu_individual hg).1 h), if_neg fun h => hd ((nsdu_individual hg).1 h)]
      exact none _ _ (.inl (not_lt.1 hd))

theorem lData_form {k : Kind} {tb : Tables} {l : LData} {m : Msg} {r : Res} (h : lDataDecode k tb l m = .ok r) :
    FromTelegram (messages r) := by
  unfold lDataDecode at h
  split at h
  · unfold nDataIndividualDecode at h
    split_ifs at h
    · split at h
      · cases h
      · rename_i ms hms
        cases h
        unfold tDataIndividualDecode at hms
        split at hms
        · split at hms
          · cases hms
          · split_ifs at hms
            · exact propertyDispatch_form hms
            · cases hms
              exact fromTelegram_nil
        · split at hms
          · cases hms
          · split_ifs at hms
            · exact propertyDispatch_form hms
            · cases hms
              exact fromTelegram_nil
    · cases h
      exact fromTelegram_nil
  · split_ifs at h
    · unfold nDataGroupDecode at h
      split_ifs at h
      · split at h
        · cases h
        · rename_i ms hms
          cases h
          unfold tDataGroupDecode at hms
          split at hms
          · cases hms
          · cases hms
            exact fromTelegram_nil
          · cases hms
            exact fromTelegram_nil
          · simp only at hms
            split at hms
            · cases hms
            · rename_i r hr
              split at hms
              · cases hms
              · cases hms
                split_ifs at hr
                · exact groupService_form hr
                · exact groupService_form hr
                · exact groupService_form hr
                · cases hr
                  exact fromTelegram_nil
      · cases h
        exact fromTelegram_nil
    · cases h
      exact fromTelegram_nil

theorem append_ofNat (a b : Byte) : BitVec.ofNat 16 (shortOf a b) = a ++ b := by
  apply BitVec.eq_of_toNat_eq
  have h1 := a.isLt
  have h2 := b.isLt
  rw [shortOf_eq, BitVec.toNat_append, ← Nat.shiftLeft_add_eq_or_of_lt h2, Nat.shiftLeft_eq, BitVec.toNat_ofNat,
    Nat.mod_eq_of_lt (by omega)]

theorem makeFrom_in (m : Msg) : LData.makeFrom m = match telegramIn m with
    | some t => .ok (ldataOf t, payload t)
    | none => .error .indexError := by
  rcases m with _ | ⟨c1, _ | ⟨c2, _ | ⟨s1, _ | ⟨s2, _ | ⟨d1, _ | ⟨d2, _ | ⟨n, _ | ⟨tp, _ | ⟨ap, rest⟩⟩⟩⟩⟩⟩⟩⟩⟩
  all_goals try rfl
  show Except.ok (LData.mk c1 c2 (BitVec.ofNat 16 (shortOf s1 s2)) (BitVec.ofNat 16 (shortOf d1 d2)) n tp ap, _) = _
  rw [append_ofNat, append_ofNat]
  rfl

theorem msgCode_logged {v : Display} (ho : OrderOk v.order) (m : Msg) (c : LoggedState) :
    msgCodeLog v m c = ((msgCodeDecode m c.state).1, ⟨(msgCodeDecode m c.state).2,
      c.log ++ cemiLines v c.state.assoc (resultOf (msgCodeDecode m c.state).1) m⟩) := by
  rcases m with _ | ⟨code, _ | ⟨n, rest⟩⟩
  · show (_, c) = (_, (⟨c.state, c.log ++ []⟩ : LoggedState))
    rw [List.append_nil]
    rfl
  · show (_, c) = (_, (⟨c.state, c.log ++ []⟩ : LoggedState))
    rw [List.append_nil]
    rfl
  have key : ∀ k : Kind, cemiLdataLog v k (rest.drop n.toNat) c =
      ((cemiLdataDecode k (rest.drop n.toNat) c.state).1, ⟨(cemiLdataDecode k (rest.drop n.toNat) c.state).2,
        c.log ++ match telegramIn (rest.drop n.toNat) with
          | none => []
          | some t => telegramLines v k.confirms c.state.assoc (resultOf (cemiLdataDecode k (rest.drop n.toNat) c.state).1) t⟩) := by
    intro k
    unfold cemiLdataLog cemiLdataDecode
    rw [makeFrom_in]
    cases telegramIn (rest.drop n.toNat) with
    | none =>
      show (_, c) = (_, (⟨c.state, c.log ++ []⟩ : LoggedState))
      rw [List.append_nil]
    | some t =>
      simp only
      rw [lData_logged ho]
      rfl
  unfold msgCodeLog msgCodeDecode
  simp only [octect]
  have hc : ∀ {x : Byte} {y : Nat}, x.toNat = y → (code.toNat = y ↔ code = x) := by
    intro x y h
    subst h
    exact BitVec.toNat_inj
  simp only [hc (show (0x29 : Byte).toNat = 0x29 from rfl), hc (show (0x2E : Byte).toNat = 0x2E from rfl)]
  by_cases h1 : code = 0x29
  · subst h1
    rw [if_pos rfl, if_pos rfl, key]
    rfl
  · by_cases h2 : code = 0x2E
    · subst h2
      rw [if_neg h1, if_neg h1, if_pos rfl, if_pos rfl, key]
      rfl
    · rw [if_neg h1, if_neg h1, if_neg h2, if_neg h2]
      have hn : ∀ r, cemiLines v c.state.assoc r (code :: n :: rest) = [] := by
        intro r
        unfold cemiLines
        simp only
        cases telegramIn (rest.drop n.toNat) with
        | none => rfl
        | some t => exact if_neg fun h => h.elim h1 h2
      rw [hn, List.append_nil]
      rfl

theorem msgCode_form {m : Msg} {s : State} {r : Res} (h : (msgCodeDecode m s).1 = .ok r) : FromTelegram (messages r) := by
  have key : ∀ k m, (cemiLdataDecode k m s).1 = .ok r → FromTelegram (messages r) := by
    intro k m h
    unfold cemiLdataDecode at h
    split at h
    · cases h
    · exact lData_form h
  rcases m with _ | ⟨code, _ | ⟨n, rest⟩⟩
  · cases h
  · cases h
  unfold msgCodeDecode at h
  simp only [octect] at h
  split_ifs at h
  · exact key _ _ h
  · exact key _ _ h
  · cases h
    exact fromTelegram_nil

/-! ## USB -/

/-- What a decoder logs, given what it returns. -/
def Logs (v : Display) (f : Py LoggedState Res) (g : Py State Res) (cemi : Option Msg) : Prop :=
  (∀ c : LoggedState, f c = ((g c.state).1, ⟨(g c.state).2, c.log ++ match cemi with
    | some m => cemiLines v c.state.assoc (resultOf (g c.state).1) m
    | none => []⟩)) ∧
  ∀ m, cemi = some m → g = msgCodeDecode m

theorem logs_raise (v : Display) (e : Err) : Logs v (Py.raise e) (Py.raise e) none := by
  refine ⟨fun c => ?_, fun _ h => nomatch h⟩
  show (_, c) = (_, (⟨c.state, c.log ++ []⟩ : LoggedState))
  rw [List.append_nil]
  rfl

theorem logs_pure (v : Display) (r : Res) : Logs v (Py.pure r) (Py.pure r) none := by
  refine ⟨fun c => ?_, fun _ h => nomatch h⟩
  show (_, c) = (_, (⟨c.state, c.log ++ []⟩ : LoggedState))
  rw [List.append_nil]
  rfl

theorem toNat_iff {x : Byte} (y : Byte) {n : Nat} (h : y.toNat = n) : x.toNat = n ↔ x = y := by
  subst h
  exact BitVec.toNat_inj

theorem protocolId_logs {v : Display} (ho : OrderOk v.order) (m : Msg) : Logs v (protocolIdLog v m) (protocolIdDecode m) (cemiInBody m) := by
  rcases m with _ | ⟨p, m⟩
  · exact logs_raise v _
  unfold protocolIdLog protocolIdDecode
  simp only [octect, toNat_iff (x := p) 0x01 (n := 0x01) rfl, toNat_iff (x := p) 0x0F (n := 0x0F) rfl]
  by_cases hp : p = 0x01
  · subst hp
    rw [if_pos rfl, if_pos rfl]
    rcases m with _ | ⟨e, m⟩
    · exact logs_raise v _
    unfold emiIdLog emiIdDecode
    simp only [octect, toNat_iff (x := e) 0x03 (n := 0x03) rfl]
    by_cases he : e = 0x03
    · subst he
      rw [if_pos rfl, if_pos rfl]
      rcases m with _ | ⟨a, _ | ⟨b, m⟩⟩
      · exact logs_raise v _
      · have : cemiInBody [0x01, 0x03, a] = none := by
          unfold cemiInBody
          split
          · rename_i heq
            cases heq
          · rfl
        rw [this]
        exact logs_raise v _
      simp only [short]
      have hab : shortOf a b = 0 ↔ a = 0 ∧ b = 0 := by
        rw [shortOf_eq]
        constructor
        · intro h
          exact ⟨BitVec.eq_of_toNat_eq (by simpa using (show a.toNat = 0 by omega)),
            BitVec.eq_of_toNat_eq (by simpa using (show b.toNat = 0 by omega))⟩
        · rintro ⟨rfl, rfl⟩
          rfl
      simp only [hab]
      by_cases h : a = 0 ∧ b = 0
      · obtain ⟨rfl, rfl⟩ := h
        rw [if_pos ⟨rfl, rfl⟩, if_pos ⟨rfl, rfl⟩]
        exact ⟨msgCode_logged ho m, fun _ h => by cases h; rfl⟩
      · rw [if_neg h, if_neg h]
        have : cemiInBody (0x01 :: 0x03 :: a :: b :: m) = none := by
          unfold cemiInBody
          split
          · rename_i heq
            cases heq
            exact absurd ⟨rfl, rfl⟩ h
          · rfl
        rw [this]
        exact logs_pure v _
    · rw [if_neg he, if_neg he]
      have : cemiInBody (0x01 :: e :: m) = none := by
        unfold cemiInBody
        split
        · rename_i heq
          cases heq
          exact absurd rfl he
        · rfl
      rw [this]
      exact logs_pure v _
  · rw [if_neg hp, if_neg hp]
    have : cemiInBody (p :: m) = none := by
      unfold cemiInBody
      split
      · rename_i heq
        cases heq
        exact absurd rfl hp
      · rfl
    rw [this]
    split_ifs
    · cases serviceDecode m with
      | error e => exact logs_raise v _
      | ok r => exact logs_pure v _
    · exact logs_pure v _

theorem protocolVersion_logs {v : Display} (ho : OrderOk v.order) (m : Msg) :
    Logs v (protocolVersionLog v m) (protocolVersionDecode m) (cemiInPart m) := by
  rcases m with _ | ⟨p, m⟩
  · exact logs_raise v _
  unfold protocolVersionLog protocolVersionDecode
  simp only [octect, toNat_iff (x := p) 0x00 (n := 0x00) rfl]
  by_cases hp : p = 0x00
  · subst hp
    rw [if_pos rfl, if_pos rfl]
    rcases m with _ | ⟨e, m⟩
    · exact logs_raise v _
    unfold headerLengthLog headerLengthDecode
    simp only [octect, toNat_iff (x := e) 0x08 (n := 0x08) rfl]
    by_cases he : e = 0x08
    · subst he
      rw [if_pos rfl, if_pos rfl]
      rcases m with _ | ⟨a, _ | ⟨b, m⟩⟩
      · exact logs_raise v _
      · exact logs_raise v _
      unfold bodyLengthLog bodyLengthDecode
      simp only [short]
      rw [shortOf_eq]
      exact protocolId_logs ho _
    · rw [if_neg he, if_neg he]
      have : cemiInPart (0x00 :: e :: m) = none := by
        unfold cemiInPart
        split
        · rename_i heq
          cases heq
          exact absurd rfl he
        · rfl
      rw [this]
      exact logs_pure v _
  · rw [if_neg hp, if_neg hp]
    have : cemiInPart (p :: m) = none := by
      unfold cemiInPart
      split
      · rename_i heq
        cases heq
        exact absurd rfl hp
      · rfl
    rw [this]
    exact logs_pure v _

theorem reportId_logs {v : Display} (ho : OrderOk v.order) (m : Msg) : Logs v (reportIdLog v m) (reportIdDecode m) (cemiInReport m) := by
  rcases m with _ | ⟨p, m⟩
  · exact logs_raise v _
  unfold reportIdLog reportIdDecode
  simp only [octect, toNat_iff (x := p) 0x01 (n := 0x01) rfl]
  by_cases hp : p = 0x01
  · subst hp
    rw [if_pos rfl, if_pos rfl]
    rcases m with _ | ⟨i, m⟩
    · exact logs_raise v _
    unfold packetInfoLog packetInfoDecode
    simp only [octect]
    have hi : getB 0 4 i = 3 ↔ i.toNat % 16 = 3 := by
      unfold getB getField
      simp
    simp only [hi]
    rcases m with _ | ⟨len, m⟩
    · split_ifs
      · exact logs_raise v _
      · exact logs_pure v _
    show Logs v _ _ (if i.toNat % 16 = 3 then cemiInPart (m.take len.toNat) else none)
    by_cases h : i.toNat % 16 = 3
    · rw [if_pos h, if_pos h, if_pos h]
      exact protocolVersion_logs ho _
    · rw [if_neg h, if_neg h, if_neg h]
      exact logs_pure v _
  · rw [if_neg hp, if_neg hp]
    have : cemiInReport (p :: m) = none := by
      unfold cemiInReport
      split
      · rename_i heq
        cases heq
        exact absurd rfl hp
      · rfl
    rw [this]
    exact logs_pure v _

/-! ## KNXnet/IP -/

theorem kept_all {ms : List OutMsg} (h : FromTelegram ms) :
    (ms.filter fun m => match m with | .tunnelingReq .. => false | _ => true) = ms := by
  rw [List.filter_eq_self]
  intro m hm
  rcases h with h | ⟨svc, conf, oi, pid, noe, si, data, rfl, -⟩
  · obtain ⟨svc, conf, a, d, rfl⟩ := h m hm
    rfl
  · rw [List.mem_singleton] at hm
    subst hm
    rfl

theorem telegramMessages_own {r : Except Err Res} (h : ∀ x, r = .ok x → FromTelegram (messages x)) : telegramMessages r = resultOf r := by
  cases r with
  | error e => rfl
  | ok x => exact congrArg some (kept_all (h x rfl))

theorem telegramMessages_request {r : Res} (q : Nat) (st : ErrorCode) (h : FromTelegram (messages r)) :
    telegramMessages (.ok (.list (extend [.tunnelingReq q st] r))) = some (messages r) := by
  have : extend [.tunnelingReq q st] r = .tunnelingReq q st :: messages r := by
    cases r with
    | list l => rfl
    | tuple l => rfl
    | none => rfl
  rw [this]
  show some (List.filter _ (_ :: _)) = _
  exact congrArg some ((List.filter_cons_of_neg (by simp)).trans (kept_all h))

theorem counter_word (q : Nat) : "knxnet_ip.tunneling.decode.req sequence counter=".toList ++ decimal q = counterText q := by
  unfold counterText
  rw [decimal_word, fill_pieces _ [natWord q] "knxnet_ip.tunneling.decode.req sequence counter=".toList [[]]
    (by decide +kernel) (by decide +kernel) rfl]
  simp

theorem service_word (q : Nat) : "Unknown knxnet_ip service value ".toList ++ decimal q =
    fill "Unknown knxnet_ip service value {}".toList [natWord q] := by
  rw [decimal_word, fill_pieces _ [natWord q] "Unknown knxnet_ip service value ".toList [[]] (by decide +kernel) (by decide +kernel) rfl]
  simp

theorem request_logged {v : Display} (ho : OrderOk v.order) (l1 l2 h chan q st : Byte) (m : Msg) (c : LoggedState) :
    tunnelingReqLog v (l1 :: l2 :: h :: chan :: q :: st :: m) c =
      ((tunnelingReqDecode (l1 :: l2 :: h :: chan :: q :: st :: m) c.state).1,
        ⟨(tunnelingReqDecode (l1 :: l2 :: h :: chan :: q :: st :: m) c.state).2,
          c.log ++ ⟨"knxnet_ip.tunneling.req", .debug, counterText q.toNat⟩ ::
            (if c.state.seqRemote = q.toNat then cemiLines v c.state.assoc
              (telegramMessages (tunnelingReqDecode (l1 :: l2 :: h :: chan :: q :: st :: m) c.state).1) m else [])⟩) := by
  unfold tunnelingReqLog tunnelingReqDecode
  simp only [short, connHeader, octect, Py.bind, LoggedState.write, Py.modify, counterLine]
  rw [counter_word]
  by_cases hq : c.state.seqRemote = q.toNat
  · rw [if_pos hq, if_pos hq, if_pos hq]
    rw [msgCode_logged ho]
    have hf := fun r => msgCode_form (m := m) (s := c.state) (r := r)
    simp only
    rcases hx : msgCodeDecode m c.state with ⟨e | r, s'⟩
    · simp only [List.append_assoc]
      rfl
    · simp only [List.append_assoc]
      rw [telegramMessages_request _ _ (hf r (by rw [hx]))]
      rfl
  · simp only [if_neg hq]
    split_ifs <;> rfl

theorem ack_logged (l1 l2 h chan q st : Byte) (m : Msg) (c : LoggedState) :
    tunnelingAckLog (l1 :: l2 :: h :: chan :: q :: st :: m) c =
      ((tunnelingAckDecode (l1 :: l2 :: h :: chan :: q :: st :: m) c.state).1,
        ⟨(tunnelingAckDecode (l1 :: l2 :: h :: chan :: q :: st :: m) c.state).2,
          c.log ++ [⟨"knxnet_ip.tunneling.ack", .info, counterText q.toNat⟩]⟩) := by
  unfold tunnelingAckLog tunnelingAckDecode
  simp only [short, connHeader, octect, Py.bind, LoggedState.write, Py.modify, counterLine, Py.lift]
  rw [counter_word]
  rcases errorCode st.toNat with e | x <;> rfl

theorem nothing_logged {r : Except Err Res} {c : LoggedState} : (r, c) = (r, (⟨c.state, c.log ++ []⟩ : LoggedState)) := by
  rw [List.append_nil]

theorem silent_logged (f : Py State Res) (c : LoggedState) :
    LoggedState.silent f c = ((f c.state).1, ⟨(f c.state).2, c.log ++ []⟩) := by
  rw [List.append_nil]
  rfl

theorem ipHeader_logged {v : Display} (ho : OrderOk v.order) (m : Msg) (c : LoggedState) :
    ipHeaderLog v m c = ((ipHeaderDecode m c.state).1, ⟨(ipHeaderDecode m c.state).2,
      c.log ++ datagramLines v c.state (telegramMessages (ipHeaderDecode m c.state).1) m⟩) := by
  rcases m with _ | ⟨h, _ | ⟨x, _ | ⟨a, _ | ⟨b, body⟩⟩⟩⟩
  iterate 4
    · have hl : ∀ (m : Msg) r, m.length < 4 → datagramLines v c.state r m = [] := by
        intro m r h
        unfold datagramLines
        split
        · exact absurd h (by simp)
        · rfl
      rw [hl _ _ (by simp)]
      exact nothing_logged
  by_cases hh : h = 0x06 ∧ x = 0x10
  swap
  · have hl : ∀ r, datagramLines v c.state r (h :: x :: a :: b :: body) = [] := by
      intro r
      unfold datagramLines
      split
      · rename_i heq
        cases heq
        exact absurd ⟨rfl, rfl⟩ hh
      · rfl
    rw [hl, ip_dispatch, if_neg hh]
    unfold ipHeaderLog
    simp only [octect, short]
    rw [if_neg fun e => hh ⟨BitVec.eq_of_toNat_eq e.1, BitVec.eq_of_toNat_eq e.2⟩]
    exact nothing_logged
  obtain ⟨rfl, rfl⟩ := hh
  have hl : ∀ r, datagramLines v c.state r (0x06 :: 0x10 :: a :: b :: body) =
      if (a, b) = (0x04, 0x20) then
        match body with
        | _ :: _ :: _ :: _ :: q :: _ :: cemi =>
          ⟨"knxnet_ip.tunneling.req", .debug, counterText q.toNat⟩ ::
            (if c.state.seqRemote = q.toNat then cemiLines v c.state.assoc r cemi else [])
        | _ => []
      else if (a, b) = (0x04, 0x21) then
        match body with
        | _ :: _ :: _ :: _ :: q :: _ :: _ => [⟨"knxnet_ip.tunneling.ack", .info, counterText q.toNat⟩]
        | _ => []
      else if (a, b) ∈ knownServices then []
      else [⟨"knxnet_ip.header", .error, fill "Unknown knxnet_ip service value {}".toList [natWord (a.toNat * 256 + b.toNat)]⟩] :=
    fun r => rfl
  rw [ip_dispatch, if_pos ⟨rfl, rfl⟩]
  unfold ipHeaderLog
  simp only [octect, short]
  rw [if_pos ⟨rfl, rfl⟩]
  simp only [service_iff a b 0x02 0x02 0x0202 (by decide), service_iff a b 0x02 0x0A 0x020A (by decide),
    service_iff a b 0x02 0x06 0x0206 (by decide), service_iff a b 0x02 0x08 0x0208 (by decide),
    service_iff a b 0x04 0x20 0x0420 (by decide), service_iff a b 0x04 0x21 0x0421 (by decide)]
  split_ifs with c1 c2 c3 c4 c5 c6
  · obtain ⟨rfl, rfl⟩ := c1
    rw [hl, if_neg (by decide), if_neg (by decide), if_pos (by decide)]
    simp only [Py.bind, Py.lift]
    rcases searchResDecode body with e | r <;> exact nothing_logged
  · obtain ⟨rfl, rfl⟩ := c2
    rw [hl, if_neg (by decide), if_neg (by decide), if_pos (by decide)]
    exact silent_logged _ _
  · obtain ⟨rfl, rfl⟩ := c3
    rw [hl, if_neg (by decide), if_neg (by decide), if_pos (by decide)]
    exact silent_logged _ _
  · obtain ⟨rfl, rfl⟩ := c4
    rw [hl, if_neg (by decide), if_neg (by decide), if_pos (by decide)]
    simp only [Py.bind, Py.lift]
    rcases connectionstateResDecode body with e | r <;> exact nothing_logged
  · obtain ⟨rfl, rfl⟩ := c5
    rw [hl, if_pos rfl]
    rcases body with _ | ⟨l1, _ | ⟨l2, _ | ⟨hs, _ | ⟨ch, _ | ⟨q, _ | ⟨st, m⟩⟩⟩⟩⟩⟩
    all_goals try exact nothing_logged
    exact request_logged ho l1 l2 hs ch q st m c
  · obtain ⟨rfl, rfl⟩ := c6
    rw [hl, if_neg (by decide), if_pos rfl]
    rcases body with _ | ⟨l1, _ | ⟨l2, _ | ⟨hs, _ | ⟨ch, _ | ⟨q, _ | ⟨st, m⟩⟩⟩⟩⟩⟩
    all_goals try exact nothing_logged
    exact ack_logged l1 l2 hs ch q st m c
  · have e : ∀ x y : Byte, (a, b) = (x, y) ↔ a = x ∧ b = y := fun x y => Prod.mk.injEq .. ▸ Iff.rfl
    have hk : (a, b) ∉ knownServices := by
      unfold knownServices
      simp only [List.mem_cons, List.not_mem_nil, or_false, e, not_or]
      exact ⟨c1, c3, c4, c2, c5, c6⟩
    rw [hl, if_neg fun h => c5 ((e ..).1 h), if_neg fun h => c6 ((e ..).1 h), if_neg hk, ← shortOf_eq, ← service_word]
    rfl

/-- C119: what the decoders log about a frame, and that logging changes nothing else. -/
theorem c119_log {v : Display} (ho : OrderOk v.order) (m : Msg) (c : LoggedState) :
    decodeMsgLog v m c =
      ((decodeMsg m c.state).1, { state := (decodeMsg m c.state).2, log := c.log ++ frameLines v c.state m }) := by
  unfold decodeMsgLog frameLines decodeMsg
  cases c.state.medium with
  | tp => exact nothing_logged
  | usbHid =>
    simp only
    obtain ⟨h1, h2⟩ := reportId_logs ho m
    rw [h1 c]
    cases hr : cemiInReport m with
    | none => rfl
    | some x =>
      simp only
      rw [telegramMessages_own fun r h => msgCode_form (m := x) (s := c.state) (by rw [← h2 x hr]; exact h)]
  | knxnetIp => exact ipHeader_logged ho m c

/-- Numbers for the types of addresses, as since python 3.11. -/
def exDisplay : Display := ⟨false, exFloatText, fun c => c.props.reverse⟩

/-- A write of 1, on KNXnet/IP: the value of the first ASAP and both ASAPs are logged. -/
example : (decodeMsgLog exDisplay [0x06, 0x10, 0x04, 0x20, 0, 21, 4, 7, 255, 0, 0x29, 0, 0xBC, 0xE0, 0x11, 0x0A, 0x0E, 0x89, 1, 0, 0x81]
    ⟨exState .knxnetIp, []⟩).2.log =
    [⟨"knxnet_ip.tunneling.req", .debug, "knxnet_ip.tunneling.decode.req sequence counter=255".toList⟩,
      ⟨"layer.transport.t_data_group.ind", .debug,
        "received msg 81 source: 4362 (0x110A), destination: 3721 (0x0E89), address_type: 1 DPT_Switch {'action': 'on'} asaps [3, 7]".toList⟩] := by
  rw [c119_log exOrderOk]
  decide +kernel

example : (decodeMsgLog exDisplay [0x06, 0x10, 0x05, 0x30, 0, 6] ⟨exState .knxnetIp, []⟩).2.log =
    [⟨"knxnet_ip.header", .error, "Unknown knxnet_ip service value 1328".toList⟩] := by
  rw [c119_log exOrderOk]
  decide +kernel

/-! ## Consequences -/

theorem carries_decode {s : State} {x m : Msg} (h : CarriesCemi s x m) :
    telegramMessages (decodeMsg m s).1 = resultOf (msgCodeDecode x s).1 ∧
      ∀ v, transportLines (frameLines v s m) = cemiLines v s.assoc (resultOf (msgCodeDecode x s).1) x := by
  have hno : ∀ v r, transportLines (cemiLines v s.assoc r x) = cemiLines v s.assoc r x := by
    intro v r
    unfold transportLines
    rw [List.filter_eq_self]
    intro l hl
    have hm : ∀ g b, transportModule g b ≠ "knxnet_ip.tunneling.req" := by decide
    have ht : ∀ k t, ∀ l ∈ telegramLines v k s.assoc r t, l.logger ≠ "knxnet_ip.tunneling.req" := by
      intro k t l hl
      unfold telegramLines at hl
      simp only at hl
      split_ifs at hl
      · cases hl
      · split at hl
        · cases hl
        · split_ifs at hl
          · rw [List.mem_singleton] at hl
            subst hl
            exact hm _ _
          · split at hl
            · cases hl
            · rw [List.mem_singleton] at hl
              subst hl
              exact hm _ _
    rw [decide_eq_true_eq]
    unfold cemiLines at hl
    split at hl
    · split at hl
      · cases hl
      · split_ifs at hl
        · exact ht _ _ l hl
        · cases hl
    · cases hl
  rcases h with ⟨hm, hx⟩ | ⟨hm, l1, l2, hs, chan, q, st, rfl, hq⟩
  · have e : decodeMsg m s = msgCodeDecode x s := by
      unfold decodeMsg
      rw [hm]
      simp only
      rw [(reportId_logs (v := ⟨true, fun _ => [], DptClass.props⟩) (fun c => List.Perm.refl _) m).2 x hx]
    have e2 : telegramMessages (decodeMsg m s).1 = resultOf (msgCodeDecode x s).1 := by
      rw [e]
      exact telegramMessages_own fun r h => msgCode_form h
    refine ⟨e2, fun v => ?_⟩
    unfold frameLines
    rw [hm]
    simp only
    rw [hx, e2]
    exact hno v _
  · have e : decodeMsg (0x06 :: 0x10 :: 0x04 :: 0x20 :: l1 :: l2 :: hs :: chan :: q :: st :: x) s =
        tunnelingReqDecode (l1 :: l2 :: hs :: chan :: q :: st :: x) s := by
      rw [decode_ip hm, ip_dispatch, if_pos ⟨rfl, rfl⟩, if_neg (by decide), if_neg (by decide), if_neg (by decide), if_neg (by decide),
        if_pos ⟨rfl, rfl⟩]
    have e2 : telegramMessages (decodeMsg (0x06 :: 0x10 :: 0x04 :: 0x20 :: l1 :: l2 :: hs :: chan :: q :: st :: x) s).1 =
        resultOf (msgCodeDecode x s).1 := by
      rw [e]
      unfold tunnelingReqDecode
      simp only [short, connHeader, octect]
      rw [if_pos hq]
      rcases hr : msgCodeDecode x s with ⟨e | r, s'⟩
      · rfl
      · exact telegramMessages_request _ _ (msgCode_form (by rw [hr]))
    refine ⟨e2, fun v => ?_⟩
    unfold frameLines
    rw [hm]
    simp only
    rw [e2]
    show transportLines (_ :: (if s.seqRemote = q.toNat then _ else [])) = _
    rw [if_pos hq]
    exact (List.filter_cons_of_neg (p := fun l : LogLine => decide (l.logger ≠ "knxnet_ip.tunneling.req"))
      (a := (⟨"knxnet_ip.tunneling.req", .debug, counterText q.toNat⟩ : LogLine)) (by simp)).trans (hno v _)

theorem carries_telegram {x : Msg} {k : Kind} {t : Telegram} (h : HasTelegram x k.confirms t) (s : State) :
    msgCodeDecode x s = (lDataDecode k s.tables (ldataOf t) (payload t), { s with ldata := some (ldataOf t) }) ∧
      ∀ v r, cemiLines v s.assoc r x = telegramLines v k.confirms s.assoc r t := by
  obtain ⟨n, rest, rfl, ht⟩ := h
  have e : ∀ k, cemiLdataDecode k (rest.drop n.toNat) s =
      (lDataDecode k s.tables (ldataOf t) (payload t), { s with ldata := some (ldataOf t) }) := by
    intro k
    unfold cemiLdataDecode
    rw [makeFrom_in, ht]
  cases k with
  | ind =>
    refine ⟨?_, fun v r => ?_⟩
    · rw [← e]
      rfl
    · show (match telegramIn (rest.drop n.toNat) with | none => [] | some t => _) = _
      rw [ht]
      rfl
  | con =>
    refine ⟨?_, fun v r => ?_⟩
    · rw [← e]
      rfl
    · show (match telegramIn (rest.drop n.toNat) with | none => [] | some t => _) = _
      rw [ht]
      rfl

theorem kind_confirms (b : Bool) : ∃ k : Kind, k.confirms = b := by
  cases b
  · exact ⟨.ind, rfl⟩
  · exact ⟨.con, rfl⟩

theorem others_decode {k : Kind} {tb : Tables} {a : AssocTable} {t : Telegram} (ha : tb.assoc = some a) (h4 : t.tpci.toNat < 4)
    (h0 : 128 ≤ t.ctrl2.toNat → t.destination ≠ 0)
    (hf : forOthers a (128 ≤ t.ctrl2.toNat) k.confirms t.source t.destination) :
    lDataDecode k tb (ldataOf t) (payload t) = .ok (.list []) := by
  unfold lDataDecode
  by_cases hg : t.IsGroup
  · rw [decide_eq_true (show 128 ≤ t.ctrl2.toNat from hg)] at hf
    rw [addressType_group hg]
    simp only
    rw [show (ldataOf t).destination = t.destination from rfl, if_pos (h0 hg)]
    unfold nDataGroupDecode
    rw [if_pos ((nsdu_group hg (h0 hg)).2 h4)]
    unfold tDataGroupDecode Tables.getTsap
    rw [ha, show (ldataOf t).destination = t.destination from rfl]
    simp only
    rcases getTsap_foreign (a := a) (d := t.destination) (fun h => hf ((groupKnown_iff ..).2 h)) with h | h
    · rw [h]
    · rw [h]
  · rw [decide_eq_false (show ¬ 128 ≤ t.ctrl2.toNat from hg)] at hf
    rw [addressType_individual hg]
    simp only
    unfold nDataIndividualDecode
    rw [if_pos ((nsdu_individual hg).2 h4)]
    unfold tDataIndividualDecode Tables.getTsap Tables.individualAddress
    rw [ha, show (ldataOf t).destination = t.destination from rfl, show (ldataOf t).source = t.source from rfl]
    cases k with
    | ind =>
      simp only
      rw [if_neg (show ¬ t.source = a.ind.fs from hf)]
    | con =>
      simp only
      rw [if_neg]
      have hf : groupKnown a t.destination ∨ t.destination ≠ a.at_.ind.fs := hf
      unfold AssocTable.getTsap AddressTable.getTsap
      cases hi : AddressTable.index a.at_.gas ⟨0, t.destination⟩ with
      | some i => simp
      | none =>
        have := AddressTable.index_none.1 hi
        rw [groupKnown_iff] at hf
        have hf := hf.resolve_left this
        simp [Addr.eq, hf]

/-- C119, refuted: a connection oriented, tagged or broadcast telegram is dropped without a line, on both media, in every state. -/
theorem c119_refuted {s : State} {x m : Msg} {confirmation : Bool} {t : Telegram} (hc : CarriesCemi s x m)
    (ht : HasTelegram x confirmation t) (h : 4 ≤ t.tpci.toNat ∨ 128 ≤ t.ctrl2.toNat ∧ t.destination = 0) (v : Display) :
    telegramMessages (decodeMsg m s).1 = some [] ∧ transportLines (frameLines v s m) = [] := by
  obtain ⟨k, rfl⟩ := kind_confirms confirmation
  obtain ⟨h1, h2⟩ := carries_decode hc
  obtain ⟨h3, h4⟩ := carries_telegram ht s
  rw [h1, h2, h4, h3]
  refine ⟨?_, if_pos (h.imp_right (And.imp_left decide_eq_true))⟩
  show resultOf (lDataDecode k s.tables (ldataOf t) (payload t)) = _
  unfold lDataDecode
  by_cases hg : t.IsGroup
  · rw [addressType_group hg]
    simp only
    rw [show (ldataOf t).destination = t.destination from rfl]
    by_cases h0 : t.destination = 0
    · rw [if_neg (not_not.2 h0)]
      rfl
    · rw [if_pos h0]
      unfold nDataGroupDecode
      rw [if_neg fun hn => ?_]
      · rfl
      · have := (nsdu_group hg h0).1 hn
        unfold Telegram.IsData at this
        rcases h with h | h
        · omega
        · exact h0 h.2
  · rw [addressType_individual hg]
    simp only
    unfold nDataIndividualDecode
    rw [if_neg fun hn => ?_]
    · rfl
    · have := (nsdu_individual hg).1 hn
      unfold Telegram.IsData at this
      rcases h with h | h
      · omega
      · exact hg h.1

/-- Opening a connection, on USB. -/
example : transportLines (frameLines exDisplay (exState .usbHid)
    [0x01, 0x13, 0x13, 0x00, 0x08, 0x00, 0x0B, 0x01, 0x03, 0, 0, 0x29, 0, 0xB0, 0x60, 0x11, 0x0A, 0x10, 0x04, 0, 0x80, 0]) = [] :=
  (c119_refuted (x := [0x29, 0, 0xB0, 0x60, 0x11, 0x0A, 0x10, 0x04, 0, 0x80, 0]) (t := ⟨0xB0, 0x60, 0x110A, 0x1004, 0, 0x80, 0, []⟩) (confirmation := false) (.inl ⟨rfl, by decide +kernel⟩) ⟨0, _, rfl, by decide +kernel⟩
    (.inl (by decide)) exDisplay).2

/-- C119, the other data telegrams: exactly one line, if there is a table and decoding returns. A telegram for others is logged as
discarded, and nothing is decoded. -/
theorem c119_partial {s : State} {x m : Msg} {confirmation : Bool} {t : Telegram} {a : AssocTable} {ms : List OutMsg}
    (hc : CarriesCemi s x m) (ht : HasTelegram x confirmation t) (h4 : t.tpci.toNat < 4)
    (h0 : 128 ≤ t.ctrl2.toNat → t.destination ≠ 0) (ha : s.assoc = some a)
    (hr : telegramMessages (decodeMsg m s).1 = some ms) (v : Display) :
    ∃ line, transportLines (frameLines v s m) = [line] ∧
      line.logger = transportModule (128 ≤ t.ctrl2.toNat) confirmation ∧
      (line.level = .info ∨ line.level = .debug) ∧
      (line.level = .info ↔ forOthers a (128 ≤ t.ctrl2.toNat) confirmation t.source t.destination) ∧
      (line.level = .info → ms = []) := by
  obtain ⟨k, rfl⟩ := kind_confirms confirmation
  obtain ⟨h1, h2⟩ := carries_decode hc
  obtain ⟨h3, h5⟩ := carries_telegram ht s
  rw [h1] at hr
  rw [h2, h5, hr]
  unfold telegramLines
  simp only
  rw [if_neg (by
    rintro (h | ⟨h, h'⟩)
    · omega
    · exact h0 (of_decide_eq_true h) h'), ha]
  simp only
  split_ifs with hf
  · refine ⟨_, rfl, rfl, .inl rfl, ⟨fun _ => hf, fun _ => rfl⟩, fun _ => ?_⟩
    rw [h3, others_decode ha h4 h0 hf] at hr
    cases hr
    rfl
  · exact ⟨_, rfl, rfl, .inr rfl, ⟨fun h => (nomatch h), fun h => absurd h hf⟩, fun h => (nomatch h)⟩

/-- A telegram for a group that is not in the table, on USB. -/
example : frameLines exDisplay (exState .usbHid)
      [0x01, 0x13, 0x13, 0x00, 0x08, 0x00, 0x0B, 0x01, 0x03, 0, 0, 0x29, 0, 0xBC, 0xE0, 0x11, 0x0A, 0x0E, 0x8A, 1, 0, 0x81] =
    [⟨"layer.transport.t_data_group.ind", .info,
      "discarded msg 81 source: 4362 (0x110A), destination: 3722 (0x0E8A), address_type: 1".toList⟩] := by
  decide +kernel

example : ∃ line, transportLines (frameLines exDisplay (exState .usbHid)
      [0x01, 0x13, 0x13, 0x00, 0x08, 0x00, 0x0B, 0x01, 0x03, 0, 0, 0x29, 0, 0xBC, 0xE0, 0x11, 0x0A, 0x0E, 0x8A, 1, 0, 0x81]) = [line] ∧
    line.level = .info := by
  obtain ⟨line, h1, -, -, h2, -⟩ := c119_partial (s := exState .usbHid) (x := [0x29, 0, 0xBC, 0xE0, 0x11, 0x0A, 0x0E, 0x8A, 1, 0, 0x81])
    (m := [0x01, 0x13, 0x13, 0x00, 0x08, 0x00, 0x0B, 0x01, 0x03, 0, 0, 0x29, 0, 0xBC, 0xE0, 0x11, 0x0A, 0x0E, 0x8A, 1, 0, 0x81])
    (t := ⟨0xBC, 0xE0, 0x110A, 0x0E8A, 1, 0, 0x81, []⟩)
    (confirmation := false) (ms := []) (.inl ⟨rfl, by decide +kernel⟩) ⟨0, _, rfl, by decide +kernel⟩ (by decide) (fun _ => by decide) rfl (by decide +kernel) exDisplay
  exact ⟨line, h1, h2.2 (by decide +kernel)⟩

/-- C119, refuted: a line about a received telegram does not mean that anything was decoded: a telegram for a known group with a service
other than reading, responding and writing is logged as received. -/
theorem c119_received_refuted {s : State} {x m : Msg} {confirmation : Bool} {t : Telegram} {a : AssocTable}
    (hc : CarriesCemi s x m) (ht : HasTelegram x confirmation t) (h4 : t.tpci.toNat < 4) (hg : 128 ≤ t.ctrl2.toNat)
    (h0 : t.destination ≠ 0) (ha : s.assoc = some a) (hk : groupKnown a t.destination) (hs : t.service = none) (v : Display) :
    telegramMessages (decodeMsg m s).1 = some [] ∧
      ∃ line, transportLines (frameLines v s m) = [line] ∧ line.level = .debug := by
  obtain ⟨k, rfl⟩ := kind_confirms confirmation
  obtain ⟨h1, h2⟩ := carries_decode hc
  obtain ⟨h3, h5⟩ := carries_telegram ht s
  have hl : lDataDecode k s.tables (ldataOf t) (payload t) = .ok (.list []) := by
    unfold lDataDecode
    rw [addressType_group hg]
    simp only
    rw [show (ldataOf t).destination = t.destination from rfl, if_pos h0]
    unfold nDataGroupDecode
    rw [if_pos ((nsdu_group hg h0).2 h4)]
    obtain ⟨n, hn⟩ := getTsap_group ((groupKnown_iff ..).1 hk)
    unfold tDataGroupDecode Tables.getTsap
    rw [show s.tables.assoc = some a from ha, show (ldataOf t).destination = t.destination from rfl]
    simp only
    rw [hn, apciFull_ldataOf, data_ldataOf]
    unfold Telegram.service at hs
    split_ifs at hs with c1 c2 c3
    rw [if_neg c1, if_neg (by omega), if_neg (by omega)]
    rfl
  have hm : telegramMessages (decodeMsg m s).1 = some [] := by
    rw [h1, h3]
    show resultOf (lDataDecode k s.tables (ldataOf t) (payload t)) = _
    rw [hl]
    rfl
  refine ⟨hm, ?_⟩
  obtain ⟨line, e1, -, e2 | e2, e3, -⟩ := c119_partial hc ht h4 (fun _ => h0) ha hm v
  · have := e3.1 e2
    rw [decide_eq_true hg] at this
    exact absurd hk this
  · exact ⟨line, e1, e2⟩

/-- A service of its own for a known group. -/
example : ∃ line, transportLines (frameLines exDisplay (exState .usbHid)
      [0x01, 0x13, 0x13, 0x00, 0x08, 0x00, 0x0B, 0x01, 0x03, 0, 0, 0x29, 0, 0xBC, 0xE0, 0x11, 0x0A, 0x0E, 0x89, 1, 0, 0xC1]) = [line] ∧
    line.level = .debug :=
  (c119_received_refuted (s := exState .usbHid) (x := [0x29, 0, 0xBC, 0xE0, 0x11, 0x0A, 0x0E, 0x89, 1, 0, 0xC1]) (t := ⟨0xBC, 0xE0, 0x110A, 0x0E89, 1, 0, 0xC1, []⟩) (confirmation := false)
    (.inl ⟨rfl, by decide +kernel⟩) ⟨0, _, rfl, by decide +kernel⟩ (by decide) (by decide) (by decide) rfl (by decide +kernel) (by decide) exDisplay).2

/-- C119, refuted: the line about an acknowledgement has the text of that about a request with the same counter. -/
theorem c119_ack_refuted {s : State} (hm : s.medium = .knxnetIp) (v : Display) (l1 l2 h chan q st l1' l2' h' chan' st' : Byte) (m m' : Msg) :
    ∃ r a, (frameLines v s (0x06 :: 0x10 :: 0x04 :: 0x20 :: l1 :: l2 :: h :: chan :: q :: st :: m)).head? = some r ∧
      frameLines v s (0x06 :: 0x10 :: 0x04 :: 0x21 :: l1' :: l2' :: h' :: chan' :: q :: st' :: m') = [a] ∧
      a.text = r.text ∧ a.level = .info ∧ r.level = .debug := by
  unfold frameLines
  rw [hm]
  exact ⟨_, _, rfl, rfl, rfl, rfl, rfl⟩

example : frameLines exDisplay (exState .knxnetIp) [0x06, 0x10, 0x04, 0x21, 0, 10, 4, 7, 255, 0] =
    [⟨"knxnet_ip.tunneling.ack", .info, "knxnet_ip.tunneling.decode.req sequence counter=255".toList⟩] := by
  decide +kernel

end Knx
