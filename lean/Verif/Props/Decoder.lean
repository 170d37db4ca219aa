import Verif.Props.Telegrams

/-! # C31 to C36, C52: the decoder on arbitrary octets -/

namespace Knx
open Spec

/-! ## C31 -/

/-- The exceptions C31 allows. -/
def Tolerated (e : Err) : Prop := e = .indexError ∨ e = .keyError ∨ e = .valueError

theorem octect_error {m : Msg} {e : Err} (h : octect m = .error e) : Tolerated e := by
  unfold octect at h; split at h <;> cases h; exact Or.inl rfl

theorem short_error {m : Msg} {e : Err} (h : short m = .error e) : Tolerated e := by
  unfold short at h; split at h <;> cases h; exact Or.inl rfl

theorem long_error {m : Msg} {e : Err} (h : long m = .error e) : Tolerated e := by
  unfold long at h; split at h <;> cases h; exact Or.inl rfl

theorem makeFrom_error {m : Msg} {e : Err} (h : LData.makeFrom m = .error e) : Tolerated e := by
  unfold LData.makeFrom at h
  iterate 7
    split at h
    · cases h; first | exact octect_error (by assumption) | exact short_error (by assumption)
  cases h

theorem groupDataLoop_error {m : Msg} {l : List (Asap × DptClass)} {e : Err}
    (h : groupDataLoop m l = .error e) : Tolerated e := by
  induction l with
  | nil => cases h
  | cons p l ih =>
    simp only [groupDataLoop] at h
    split at h
    · rename_i e' he
      cases h
      unfold beValue at he
      split at he
      · cases he; exact octect_error (by assumption)
      · cases he
    · split at h
      · cases h; exact ih (by assumption)
      · cases h

theorem groupService_error {svc : Svc} {k : Kind} {a : AssocTable} {g : GroupObjectTable} {l : LData} {m : Msg} {e : Err}
    (h : groupServiceDecode svc k ⟨some a, some g⟩ l m = .error e) : Tolerated e := by
  unfold groupServiceDecode at h
  split at h
  · rename_i e' he
    cases h
    unfold groupValueDecode at he
    split at he
    · rename_i e'' he'
      cases he
      unfold Tables.getAsapsAndDpts Tables.getAsaps AssocTable.getAsaps at he'
      simp only at he'
      split at he'
      · rename_i hx
        cases he'
        split at hx <;> cases hx
        exact Or.inr (Or.inl rfl)
      · cases he'
    · exact groupDataLoop_error he
  · cases h

theorem logFirst_error {l : List OutMsg} {e : Err} (h : logFirst l = .error e) : Tolerated e := by
  rw [logFirst_eq] at h
  split_ifs at h
  cases h
  exact Or.inr (Or.inr rfl)

theorem tDataGroup_error {k : Kind} {a : AssocTable} {g : GroupObjectTable} {l : LData} {m : Msg} {e : Err}
    (h : tDataGroupDecode k ⟨some a, some g⟩ l m = .error e) : Tolerated e := by
  unfold tDataGroupDecode at h
  split at h
  · rename_i he; simp [Tables.getTsap] at he
  · cases h
  · cases h
  · simp only at h
    split at h
    · rename_i he
      cases h
      split_ifs at he
      · exact groupService_error he
      · exact groupService_error he
      · exact groupService_error he
    · split at h
      · cases h; exact logFirst_error (by assumption)
      · cases h

theorem propertyService_error {svc : Svc} {k : Kind} {l : LData} {m : Msg} {e : Err}
    (h : propertyServiceDecode svc k l m = .error e) : Tolerated e := by
  unfold propertyServiceDecode at h
  split at h
  · cases h; exact long_error (by assumption)
  · cases h

theorem lData_error {k : Kind} {a : AssocTable} {g : GroupObjectTable} {l : LData} {m : Msg} {e : Err}
    (h : lDataDecode k ⟨some a, some g⟩ l m = .error e) : Tolerated e := by
  unfold lDataDecode at h
  split at h
  · unfold nDataIndividualDecode at h
    split_ifs at h
    split at h
    · rename_i he
      cases h
      have key : ∀ k, propertyDispatch k l m = .error e → Tolerated e := by
        intro k hk
        unfold propertyDispatch at hk
        split_ifs at hk
        · exact propertyService_error hk
        · exact propertyService_error hk
        · exact propertyService_error hk
      unfold tDataIndividualDecode at he
      cases k
      · simp only [Tables.individualAddress] at he
        split_ifs at he
        exact key _ he
      · simp only [Tables.getTsap] at he
        split_ifs at he
        exact key _ he
    · cases h
  · split_ifs at h
    unfold nDataGroupDecode at h
    split_ifs at h
    split at h
    · cases h; exact tDataGroup_error (by assumption)
    · cases h

theorem msgCode_error {m : Msg} {s : State} {a : AssocTable} {g : GroupObjectTable} (ha : s.assoc = some a)
    (hg : s.got = some g) {e : Err} (h : (msgCodeDecode m s).1 = .error e) : Tolerated e := by
  have key : ∀ k b, (cemiLdataDecode k b s).1 = .error e → Tolerated e := by
    intro k b hk
    unfold cemiLdataDecode at hk
    split at hk
    · cases hk; exact makeFrom_error (by assumption)
    · simp only [State.tables, ha, hg] at hk
      exact lData_error hk
  unfold msgCodeDecode at h
  rcases h1 : octect m with e1 | ⟨code, b⟩ <;> rw [h1] at h <;> simp only at h
  · cases h; exact octect_error h1
  rcases h2 : octect b with e2 | ⟨len, b⟩ <;> rw [h2] at h <;> simp only at h
  · cases h; exact octect_error h2
  split_ifs at h
  · exact key _ _ h
  · exact key _ _ h
  · cases h

theorem feature_error {m : Msg} {e : Err} (h : featureDecode m = .error e) : Tolerated e := by
  unfold featureDecode at h
  split at h
  · cases h; exact octect_error (by assumption)
  · split_ifs at h
    · split at h
      · cases h; exact octect_error (by assumption)
      · split_ifs at h
    · split at h
      · cases h; exact octect_error (by assumption)
      · split_ifs at h

theorem serviceBranch_error {m : Msg} {r : List OutMsg} {e : Err} (h : serviceBranch m r = .error e) : Tolerated e := by
  unfold serviceBranch at h
  split at h
  · cases h; exact short_error (by assumption)
  · split_ifs at h
    split at h
    · cases h; exact feature_error (by assumption)
    · cases h

theorem service_error {m : Msg} {e : Err} (h : serviceDecode m = .error e) : Tolerated e := by
  unfold serviceDecode at h
  split at h
  · cases h; exact octect_error (by assumption)
  · split at h
    · rename_i he
      cases h
      split_ifs at he
      exact serviceBranch_error he
    · split_ifs at h
      split at h
      · cases h; exact serviceBranch_error (by assumption)
      · cases h

/-- C31, first clause: decoding a USB report with both tables present raises nothing but `IndexError`, `KeyError` or
`ValueError`, whatever the octets. -/
theorem c31_exceptions (m : Msg) {s : State} {a : AssocTable} {g : GroupObjectTable} (hm : s.medium = .usbHid)
    (ha : s.assoc = some a) (hg : s.got = some g) {e : Err} (h : (decodeMsg m s).1 = .error e) :
    e = .indexError ∨ e = .keyError ∨ e = .valueError := by
  change Tolerated e
  unfold decodeMsg at h
  rw [hm] at h
  simp only at h
  unfold reportIdDecode at h
  rcases h1 : octect m with e1 | ⟨b1, m⟩ <;> rw [h1] at h <;> simp only at h
  · cases h; exact octect_error h1
  split_ifs at h
  swap
  · cases h
  unfold packetInfoDecode at h
  rcases h2 : octect m with e1 | ⟨b2, m⟩ <;> rw [h2] at h <;> simp only at h
  · cases h; exact octect_error h2
  split_ifs at h
  swap
  · cases h
  rcases h3 : octect m with e1 | ⟨b3, m⟩ <;> rw [h3] at h <;> simp only at h
  · cases h; exact octect_error h3
  generalize m.take b3.toNat = m at h
  unfold protocolVersionDecode at h
  rcases h4 : octect m with e1 | ⟨b4, m⟩ <;> rw [h4] at h <;> simp only at h
  · cases h; exact octect_error h4
  split_ifs at h
  swap
  · cases h
  unfold headerLengthDecode at h
  rcases h5 : octect m with e1 | ⟨b5, m⟩ <;> rw [h5] at h <;> simp only at h
  · cases h; exact octect_error h5
  split_ifs at h
  swap
  · cases h
  unfold bodyLengthDecode at h
  rcases h6 : short m with e1 | ⟨b6, m⟩ <;> rw [h6] at h <;> simp only at h
  · cases h; exact short_error h6
  generalize m.take (b6 + 4) = m at h
  unfold protocolIdDecode at h
  rcases h7 : octect m with e1 | ⟨b7, m⟩ <;> rw [h7] at h <;> simp only at h
  · cases h; exact octect_error h7
  split_ifs at h
  · unfold emiIdDecode at h
    rcases h8 : octect m with e1 | ⟨b8, m⟩ <;> rw [h8] at h <;> simp only at h
    · cases h; exact octect_error h8
    split_ifs at h
    swap
    · cases h
    rcases h9 : short m with e1 | ⟨b9, m⟩ <;> rw [h9] at h <;> simp only at h
    · cases h; exact short_error h9
    split_ifs at h
    · exact msgCode_error ha hg h
    · cases h
  · rcases h8 : serviceDecode m with e1 | r <;> rw [h8] at h <;> simp only at h
    · cases h; exact service_error h8
    · cases h
  · cases h

/-- A report that is cut off raises `IndexError`. -/
example : (decodeMsg [1, 0x13, 9, 0, 8, 0, 1, 1, 3, 0, 0, 0x29] (exState .usbHid)).1 = .error .indexError := by decide

/-- C31, second clause, for the telegrams it holds for: a complete group telegram to an associated address raises
exactly if the first message it yields shows a climate datapoint with an undefined operating mode, and then it is a
`ValueError`. Missing from the full claim: the absence of that exception (`c31_refuted`). -/
theorem c31_partial {s : State} {a : AssocTable} {g : GroupObjectTable} (ha : s.assoc = some a)
    (hg : s.got = some g) {t : Telegram} (htg : t.IsGroup) (htd : t.IsData) (h0 : t.destination ≠ 0)
    (hm : t.destination ∈ a.at_.gas.map Addr.fs) {vs : List Int} (hr : a.Routes ⟨0, t.destination⟩ vs) (hv : vs ≠ [])
    {k : Kind} {info f : Msg} (hi : info.length < 256) {pre : List OutMsg}
    (hc : Carries s (cemi (codeOf k) info t) f pre) (e : Err) :
    (decodeMsg f s).1 = .error e ↔ e = .valueError ∧
      ∃ svc, t.service = some svc ∧ ¬ FirstDisplayable (fanOut svc (confOf k t) g vs t.value) := by
  rw [telegram_decode ha hg htg htd h0 hm hr hv hi hc]
  unfold groupMsgs
  cases hs : t.service with
  | none => simp [FirstDisplayable]
  | some svc =>
    simp only [Option.some.injEq, exists_eq_left']
    by_cases hf : FirstDisplayable (fanOut svc (confOf k t) g vs t.value)
    · simp [hf]
    · simp only [hf, if_false, Except.error.injEq, not_false_eq_true, and_true]
      exact eq_comm

/-- C31's last clause is false: a complete write telegram to an associated address whose datapoint type has an operating
mode, carrying an undefined mode, makes the decoder raise `ValueError`. -/
theorem c31_refuted :
    ∃ (s : State) (a : AssocTable) (t : Telegram), s.assoc = some a ∧ s.got ≠ none ∧ t.IsGroup ∧ t.IsData ∧
      t.destination ∈ a.at_.gas.map Addr.fs ∧ a.Routes ⟨0, t.destination⟩ [7] ∧
      s.medium = .usbHid ∧ (decodeMsg (usbReport (cemi 0x29 [] t)) s).1 = .error .valueError := by
  let ops : List AssocTable.Op := [.associate ⟨7, none⟩ [⟨1, 0x0E89⟩]]
  let a := (AssocTable.init exAt []).2.afterAll ops
  refine ⟨State.init .usbHid (some a) (some [(⟨7, none⟩, .setupClima)]), a,
    ⟨0xBC, 0xE0, 0x110A, 0x0E89, 5, 0, 0x80, [0x0F, 1, 2, 3]⟩, rfl, by decide, by show 128 ≤ _; decide,
    by show _ < 4; decide, by decide, ?_, rfl, by decide +kernel⟩
  exact c08_exclusive_partial exAt ops (by decide) (by decide) (by decide) _

/-- C29 is false of such telegrams: nothing at all is delivered, not even to the other ASAPs on the address. -/
theorem c29_refuted :
    ∃ (s : State) (a : AssocTable) (g : GroupObjectTable) (t : Telegram), s.assoc = some a ∧ s.got = some g ∧
      t.IsGroup ∧ t.IsData ∧ t.service = some .write ∧ a.Routes ⟨0, t.destination⟩ [7, 8] ∧
      fanOut .write .ind g [7, 8] t.value =
        [.group .write .ind ⟨7, none⟩ ⟨.setupClima, 0x0F010203⟩, .group .write .ind ⟨8, none⟩ ⟨.valuePower, 0x0F010203⟩] ∧
      s.medium = .usbHid ∧ (decodeMsg (usbReport (cemi 0x29 [] t)) s).1 = .error .valueError := by
  let ops : List AssocTable.Op := [.associate ⟨7, none⟩ [⟨1, 0x0E89⟩], .associate ⟨8, none⟩ [⟨1, 0x0E89⟩]]
  let a := (AssocTable.init exAt []).2.afterAll ops
  refine ⟨State.init .usbHid (some a) (some [(⟨7, none⟩, .setupClima), (⟨8, none⟩, .valuePower)]), a, _,
    ⟨0xBC, 0xE0, 0x110A, 0x0E89, 5, 0, 0x80, [0x0F, 1, 2, 3]⟩, rfl, rfl, by show 128 ≤ _; decide,
    by show _ < 4; decide, by decide, ?_, by decide, rfl, by decide +kernel⟩
  exact c08_exclusive_partial exAt ops (by decide) (by decide) (by decide) _

/-- A registered address without association: `KeyError` (the address table may have been filled directly). -/
theorem c31_unassociated {s : State} {a : AssocTable} (ha : s.assoc = some a)
    {t : Telegram} (htg : t.IsGroup) (htd : t.IsData) (h0 : t.destination ≠ 0)
    (hm : t.destination ∈ a.at_.gas.map Addr.fs) (hr : a.Routes ⟨0, t.destination⟩ [])
    {k : Kind} {info f : Msg} (hi : info.length < 256) {pre : List OutMsg}
    (hc : Carries s (cemi (codeOf k) info t) f pre) {svc : Svc} (hs : t.service = some svc) :
    (decodeMsg f s).1 = .error .keyError := by
  have hr' : a.getAsaps (a.getTsap ⟨0, t.destination⟩) = .error .keyError := by
    have := hr
    unfold AssocTable.Routes at this
    rw [if_pos rfl] at this
    exact this
  have hg : ∀ svc, groupServiceDecode svc k s.tables (ldataOf t) (payload t) = .error .keyError := by
    intro svc
    unfold groupServiceDecode groupValueDecode Tables.getAsapsAndDpts Tables.getAsaps State.tables
    simp only [ha]
    rw [show (ldataOf t).destination = t.destination from rfl, hr']
  obtain ⟨n, hn⟩ := getTsap_group hm
  have h1 : s.tables.getTsap (ldataOf t).destination = .ok (some (n + 1)) := by
    unfold Tables.getTsap State.tables
    simp only [ha]
    exact congrArg _ hn
  have hl : lDataDecode k s.tables (ldataOf t) (payload t) = .error .keyError := by
    unfold lDataDecode
    rw [addressType_group htg]
    simp only
    rw [if_pos (show (ldataOf t).destination ≠ 0 from h0)]
    unfold nDataGroupDecode
    rw [if_pos ((nsdu_group htg h0).2 htd)]
    unfold tDataGroupDecode
    rw [h1]
    simp only [apciFull_ldataOf, data_ldataOf, hg]
    unfold Telegram.service at hs
    by_cases c0 : t.code = 0
    · simp [c0]
    rw [if_neg c0] at hs ⊢
    by_cases c1 : t.code / 64 = 1
    · rw [if_pos (by omega)]
    rw [if_neg c1] at hs
    rw [if_neg (by omega)]
    by_cases c2 : t.code / 64 = 2
    · rw [if_pos (by omega)]
    rw [if_neg c2] at hs
    cases hs
  rw [carries_error hc (by rw [codeOf_cemi t hi, hl])]

example :
    let a := (AssocTable.init (AddressTable.init ⟨0, 0x1004⟩ [⟨1, 0x0E89⟩] 10) []).2
    (decodeMsg (usbReport (cemi 0x29 [] exTelegram) ++ []) (State.init .usbHid (some a) none)).1 = .error .keyError :=
  c31_unassociated (k := .ind) (t := exTelegram) (info := []) rfl (by show 128 ≤ _; decide) (by show _ < 4; decide)
    (by decide) (by decide) (by unfold AssocTable.Routes; rw [if_pos rfl]; decide) (by decide)
    (.usb [] rfl (by decide)) (svc := .write) (by decide)

/-! ## Case analysis of the decoder on states

`Cases P` collects what a decoding function can do to a state: raise or return without touching it, or parse a
telegram. -/

/-- The ways a USB or cEMI decoder can end on a state. -/
inductive Ends (s : State) : Except Err Res × State → Prop
  | raises (e : Err) : Ends s (.error e, s)
  | returns (l : List OutMsg) : Ends s (.ok (.list l), s)
  | frame (k : Kind) (l : LData) (m : Msg) : Ends s (lDataDecode k s.tables l m, { s with ldata := some l })

theorem msgCode_ends (m : Msg) (s : State) : Ends s (msgCodeDecode m s) := by
  have key : ∀ k b, Ends s (cemiLdataDecode k b s) := by
    intro k b
    unfold cemiLdataDecode
    rcases LData.makeFrom b with e | ⟨l, b⟩
    · exact .raises e
    · exact .frame k l b
  unfold msgCodeDecode
  rcases octect m with e1 | ⟨code, b⟩
  · exact .raises _
  simp only
  rcases octect b with e2 | ⟨len, b⟩
  · exact .raises _
  simp only
  split_ifs
  · exact key _ _
  · exact key _ _
  · exact .returns _

theorem report_ends (m : Msg) (s : State) : Ends s (reportIdDecode m s) := by
  unfold reportIdDecode
  rcases octect m with e1 | ⟨b1, m⟩ <;> simp only
  · exact .raises _
  split_ifs
  swap
  · exact .returns _
  unfold packetInfoDecode
  rcases octect m with e1 | ⟨b2, m⟩ <;> simp only
  · exact .raises _
  split_ifs
  swap
  · exact .returns _
  rcases octect m with e1 | ⟨b3, m⟩ <;> simp only
  · exact .raises _
  generalize m.take b3.toNat = m
  unfold protocolVersionDecode
  rcases octect m with e1 | ⟨b4, m⟩ <;> simp only
  · exact .raises _
  split_ifs
  swap
  · exact .returns _
  unfold headerLengthDecode
  rcases octect m with e1 | ⟨b5, m⟩ <;> simp only
  · exact .raises _
  split_ifs
  swap
  · exact .returns _
  unfold bodyLengthDecode
  rcases short m with e1 | ⟨b6, m⟩ <;> simp only
  · exact .raises _
  generalize m.take (b6 + 4) = m
  unfold protocolIdDecode
  rcases octect m with e1 | ⟨b7, m⟩ <;> simp only
  · exact .raises _
  split_ifs
  · unfold emiIdDecode
    rcases octect m with e1 | ⟨b8, m⟩ <;> simp only
    · exact .raises _
    split_ifs
    swap
    · exact .returns _
    rcases short m with e1 | ⟨b9, m⟩ <;> simp only
    · exact .raises _
    split_ifs
    · exact msgCode_ends _ _
    · exact .returns _
  · rcases serviceDecode m with e1 | r <;> simp only
    · exact .raises _
    · exact .returns _
  · exact .returns _

/-! ## C32 -/

theorem lData_tuple {k : Kind} {t : Tables} {l : LData} {m : Msg} {r : List OutMsg} :
    lDataDecode k t l m ≠ .ok (.tuple r) := by
  intro h
  unfold lDataDecode at h
  split at h
  · unfold nDataIndividualDecode at h
    split_ifs at h
    · split at h <;> cases h
    · cases h
  · split_ifs at h
    · unfold nDataGroupDecode at h
      split_ifs at h
      · split at h <;> cases h
      · cases h
    · cases h

theorem lData_none {k : Kind} {t : Tables} {l : LData} {m : Msg} :
    lDataDecode k t l m = .ok .none ↔ l.addressType = .group ∧ l.destination ≠ 0 ∧ l.nsdu ≠ some .group := by
  unfold lDataDecode
  cases ha : l.addressType with
  | individual =>
    simp only [reduceCtorEq, false_and, iff_false]
    intro h
    unfold nDataIndividualDecode at h
    split_ifs at h
    · split at h <;> cases h
    · cases h
  | group =>
    simp only [true_and]
    by_cases h0 : l.destination = 0
    · simp [h0]
    · rw [if_pos h0]
      unfold nDataGroupDecode
      by_cases hn : l.nsdu = some .group
      · simp only [hn, if_true, ne_eq, not_true_eq_false, and_false, iff_false]
        intro h
        split at h <;> cases h
      · simp only [hn, if_false, ne_eq, not_false_eq_true, and_true, true_iff]
        exact h0

/-- C32 for USB: what is returned is a list, except for group telegrams that are not plain data (`None`). Missing from
the full claim: these telegrams (`c32_none_refuted`). -/
theorem c32_usb_partial (m : Msg) {s : State} (hm : s.medium = .usbHid) {r : Res} (h : (decodeMsg m s).1 = .ok r) :
    (∃ l, r = .list l) ∨
    (r = .none ∧ ∃ l, (decodeMsg m s).2.ldata = some l ∧ l.addressType = .group ∧ l.destination ≠ 0 ∧
      4 ≤ l.tpci.toNat) := by
  have hd : decodeMsg m s = reportIdDecode m s := by unfold decodeMsg; rw [hm]
  rw [hd] at h ⊢
  have he := report_ends m s
  generalize reportIdDecode m s = x at h he
  cases he with
  | raises e => cases h
  | returns l => cases h; exact Or.inl ⟨l, rfl⟩
  | frame k l b =>
    simp only at h
    cases r with
    | list l => exact Or.inl ⟨l, rfl⟩
    | tuple l => exact absurd h lData_tuple
    | none =>
      obtain ⟨h1, h2, h3⟩ := lData_none.1 h
      refine Or.inr ⟨rfl, l, rfl, h1, h2, ?_⟩
      by_contra hc
      apply h3
      have hf := (tpci_fields l.tpci).2 (by omega)
      unfold LData.nsdu
      simp only [h1, hf.1, hf.2.1, hf.2.2, true_and, h2, if_false]
      rw [if_pos (by exact h2)]

/-- C32 for KNXnet/IP: what is returned is a list, except for tunnelling acks (a pair). Missing from the full claim:
the acks (`c32_tuple_refuted`). -/
theorem c32_ip_partial (m : Msg) {s : State} (hm : s.medium = .knxnetIp) {r : Res} (h : (decodeMsg m s).1 = .ok r) :
    (∃ l, r = .list l) ∨ ((∃ l, r = .tuple l) ∧ ∃ rest, m = [0x06, 0x10, 0x04, 0x21] ++ rest) := by
  unfold decodeMsg at h
  rw [hm] at h
  simp only at h
  unfold ipHeaderDecode at h
  rcases m with - | ⟨b1, - | ⟨b2, - | ⟨b3, - | ⟨b4, m⟩⟩⟩⟩
  · cases h
  · cases h
  · cases h
  · cases h
  simp only [octect, short] at h
  split_ifs at h with hh h1 h2 h3 h4 h5 h6
  · rcases hx : searchResDecode m with e | l <;> rw [hx] at h <;> cases h
    exact Or.inl ⟨_, rfl⟩
  · left
    unfold disconnectResDecode at h
    repeat' (first | (split at h) | (split_ifs at h))
    all_goals first | (cases h; exact ⟨_, rfl⟩) | cases h
  · left
    unfold connectResDecode at h
    repeat' (first | (split at h) | (split_ifs at h))
    all_goals first | (cases h; exact ⟨_, rfl⟩) | cases h
  · rcases hx : connectionstateResDecode m with e | l <;> rw [hx] at h <;> cases h
    exact Or.inl ⟨_, rfl⟩
  · left
    unfold tunnelingReqDecode at h
    repeat' (first | (split at h) | (split_ifs at h))
    all_goals first | (cases h; exact ⟨_, rfl⟩) | cases h
  · right
    refine ⟨?_, m, ?_⟩
    · unfold tunnelingAckDecode at h
      repeat' (first | (split at h) | (split_ifs at h))
      all_goals first | (cases h; exact ⟨_, rfl⟩) | cases h
    · have e3 := b3.isLt
      have e4 := b4.isLt
      rw [shortOf_eq] at h6
      have g1 : b1 = 0x06 := BitVec.eq_of_toNat_eq hh.1
      have g2 : b2 = 0x10 := BitVec.eq_of_toNat_eq hh.2
      have g3 : b3 = 0x04 := BitVec.eq_of_toNat_eq (by show b3.toNat = 4; omega)
      have g4 : b4 = 0x21 := BitVec.eq_of_toNat_eq (by show b4.toNat = 33; omega)
      rw [g1, g2, g3, g4]
      rfl
  · cases h; exact Or.inl ⟨_, rfl⟩
  · cases h; exact Or.inl ⟨_, rfl⟩

/-- C32 is false on USB: a group telegram with a numbered transport PDU is answered with `None`. -/
theorem c32_none_refuted : ∃ (s : State) (t : Telegram), s.medium = .usbHid ∧ s.assoc ≠ none ∧ s.got ≠ none ∧
    (decodeMsg (usbReport (cemi 0x29 [] t)) s).1 = .ok .none :=
  ⟨exState .usbHid, { exTelegram with tpci := 0x04 }, rfl, by decide, by decide, by decide +kernel⟩

/-- C32 is false on KNXnet/IP: a tunnelling ack is answered with a pair. -/
theorem c32_tuple_refuted : ∃ (s : State) (m : Msg), s.medium = .knxnetIp ∧ s.assoc ≠ none ∧ s.got ≠ none ∧
    (decodeMsg m s).1 = .ok (.tuple [.tunnelingAck 1 .noError]) :=
  ⟨exState .knxnetIp, [0x06, 0x10, 0x04, 0x21, 0, 10, 4, 7, 0, 0], rfl, by decide, by decide, by decide +kernel⟩

/-- C32 is false of every group telegram with a numbered or control transport PDU: a USB report with it is answered with
`None`. (A tunnelling request with it is answered with a list that contains just the request.) -/
theorem c32_numbered_refuted {s : State} {t : Telegram} (htg : t.IsGroup) (htd : ¬ t.IsData) (h0 : t.destination ≠ 0) {k : Kind}
    {info f : Msg} (hi : info.length < 256) {pre : List OutMsg} (hc : Carries s (cemi (codeOf k) info t) f pre) :
    (decodeMsg f s).1 = match s.medium with
      | .knxnetIp => .ok (.list pre)
      | _ => .ok .none := by
  have hl : lDataDecode k s.tables (ldataOf t) (payload t) = .ok .none := by
    unfold lDataDecode
    rw [addressType_group htg]
    simp only
    rw [if_pos (show (ldataOf t).destination ≠ 0 from h0)]
    unfold nDataGroupDecode
    rw [if_neg (fun h => htd ((nsdu_group htg h0).1 h))]
  have h := codeOf_cemi (k := k) t hi s
  rw [hl] at h
  unfold decodeMsg
  cases hc with
  | usb pad hm hl =>
    rw [hm]
    simp only [usb_open hl pad s, h]
  | ip chan seq hm hs =>
    rw [hm]
    simp only [ip_open _ hs, h]
    rfl

/-- C32 is false of every tunnelling ack with a status the library knows: it is answered with a pair. -/
theorem c32_ack_refuted {s : State} (hm : s.medium = .knxnetIp) (l1 l2 x ch seq status : Byte) (rest : Msg) {r : Res}
    (h : (decodeMsg ([0x06, 0x10, 0x04, 0x21, l1, l2, x, ch, seq, status] ++ rest) s).1 = .ok r) : ∃ l, r = .tuple l := by
  unfold decodeMsg at h
  rw [hm] at h
  simp only [ipHeaderDecode, octect, short, List.cons_append, List.nil_append] at h
  rw [if_pos (by decide), if_neg (by decide), if_neg (by decide), if_neg (by decide), if_neg (by decide), if_neg (by decide),
    if_pos (by decide)] at h
  simp only [tunnelingAckDecode, short, connHeader, octect] at h
  split at h
  · cases h
  · cases h
    exact ⟨_, rfl⟩

example : (decodeMsg (usbReport (cemi 0x29 [7] { exTelegram with tpci := 0x45 }) ++ [0]) (exState .usbHid)).1 = .ok .none :=
  c32_numbered_refuted (s := exState .usbHid) (t := { exTelegram with tpci := 0x45 }) (k := .ind) (by show 128 ≤ _; decide)
    (by show ¬ _ < 4; decide) (by decide) (by decide) (.usb [0] rfl (by decide))

example : ∃ l, (decodeMsg ([0x06, 0x10, 0x04, 0x21, 0, 10, 4, 7, 0, 0] ++ [5]) (exState .knxnetIp)).1 = .ok (.tuple l) := by
  have h : (decodeMsg ([0x06, 0x10, 0x04, 0x21, 0, 10, 4, 7, 0, 0] ++ [5]) (exState .knxnetIp)).1.toBool = true := by
    decide +kernel
  rcases hr : (decodeMsg ([0x06, 0x10, 0x04, 0x21, 0, 10, 4, 7, 0, 0] ++ [5]) (exState .knxnetIp)).1 with e | r
  · rw [hr] at h
    cases h
  · obtain ⟨l, rfl⟩ := c32_ack_refuted rfl _ _ _ _ _ _ _ hr
    exact ⟨l, rfl⟩

example : (decodeMsg [1, 0x13, 0] (exState .usbHid)).1 ≠ .ok .none := by
  intro h
  rcases c32_usb_partial [1, 0x13, 0] rfl h with ⟨l, hl⟩ | ⟨-, l, hl, -⟩
  · cases hl
  · have h0 : (decodeMsg [1, 0x13, 0] (exState .usbHid)).2.ldata = none := by decide
    rw [h0] at hl
    cases hl

/-! ## C33 -/

/-- Two states that agree on the medium, the tables and the sequence counters. -/
def Agree (s s' : State) : Prop :=
  s.medium = s'.medium ∧ s.assoc = s'.assoc ∧ s.got = s'.got ∧ s.seqRemote = s'.seqRemote ∧ s.seqLocal = s'.seqLocal

/-- Two states that agree on the medium, the sequence counters and, up to a relation, the tables. -/
def AgreeBy (R : Tables → Tables → Prop) (s s' : State) : Prop :=
  s.medium = s'.medium ∧ R s.tables s'.tables ∧ s.seqRemote = s'.seqRemote ∧ s.seqLocal = s'.seqLocal

theorem agree_iff {s s' : State} : Agree s s' ↔ AgreeBy Eq s s' := by
  unfold Agree AgreeBy State.tables
  rw [Tables.mk.injEq, and_assoc]

/-- Two runs from agreeing states: same result, agreeing states afterwards. -/
def Same (R : Tables → Tables → Prop) (x y : Except Err Res × State) : Prop := x.1 = y.1 ∧ AgreeBy R x.2 y.2

/-- Telegrams are read alike with related tables. -/
def ReadAlike (R : Tables → Tables → Prop) : Prop :=
  ∀ t t', R t t' → ∀ k l m, lDataDecode k t l m = lDataDecode k t' l m

section
variable {R : Tables → Tables → Prop} (hR : ReadAlike R)
include hR

theorem msgCode_same (m : Msg) {s s' : State} (h : AgreeBy R s s') : Same R (msgCodeDecode m s) (msgCodeDecode m s') := by
  have key : ∀ k b, Same R (cemiLdataDecode k b s) (cemiLdataDecode k b s') := by
    intro k b
    unfold cemiLdataDecode
    rcases LData.makeFrom b with e | ⟨l, b⟩
    · exact ⟨rfl, h⟩
    · exact ⟨hR _ _ h.2.1 k l b, h⟩
  unfold msgCodeDecode
  rcases octect m with e1 | ⟨code, b⟩
  · exact ⟨rfl, h⟩
  simp only
  rcases octect b with e2 | ⟨len, b⟩
  · exact ⟨rfl, h⟩
  simp only
  split_ifs
  · exact key _ _
  · exact key _ _
  · exact ⟨rfl, h⟩

theorem report_same (m : Msg) {s s' : State} (h : AgreeBy R s s') : Same R (reportIdDecode m s) (reportIdDecode m s') := by
  unfold reportIdDecode
  rcases octect m with e1 | ⟨b1, m⟩ <;> simp only
  · exact ⟨rfl, h⟩
  split_ifs
  swap
  · exact ⟨rfl, h⟩
  unfold packetInfoDecode
  rcases octect m with e1 | ⟨b2, m⟩ <;> simp only
  · exact ⟨rfl, h⟩
  split_ifs
  swap
  · exact ⟨rfl, h⟩
  rcases octect m with e1 | ⟨b3, m⟩ <;> simp only
  · exact ⟨rfl, h⟩
  generalize m.take b3.toNat = m
  unfold protocolVersionDecode
  rcases octect m with e1 | ⟨b4, m⟩ <;> simp only
  · exact ⟨rfl, h⟩
  split_ifs
  swap
  · exact ⟨rfl, h⟩
  unfold headerLengthDecode
  rcases octect m with e1 | ⟨b5, m⟩ <;> simp only
  · exact ⟨rfl, h⟩
  split_ifs
  swap
  · exact ⟨rfl, h⟩
  unfold bodyLengthDecode
  rcases short m with e1 | ⟨b6, m⟩ <;> simp only
  · exact ⟨rfl, h⟩
  generalize m.take (b6 + 4) = m
  unfold protocolIdDecode
  rcases octect m with e1 | ⟨b7, m⟩ <;> simp only
  · exact ⟨rfl, h⟩
  split_ifs
  · unfold emiIdDecode
    rcases octect m with e1 | ⟨b8, m⟩ <;> simp only
    · exact ⟨rfl, h⟩
    split_ifs
    swap
    · exact ⟨rfl, h⟩
    rcases short m with e1 | ⟨b9, m⟩ <;> simp only
    · exact ⟨rfl, h⟩
    split_ifs
    · exact msgCode_same hR _ h
    · exact ⟨rfl, h⟩
  · rcases serviceDecode m with e1 | r <;> simp only
    · exact ⟨rfl, h⟩
    · exact ⟨rfl, h⟩
  · exact ⟨rfl, h⟩

theorem tunnelingReq_same (m : Msg) {s s' : State} (h : AgreeBy R s s') :
    Same R (tunnelingReqDecode m s) (tunnelingReqDecode m s') := by
  unfold tunnelingReqDecode
  rcases short m with e1 | ⟨b1, m⟩ <;> simp only
  · exact ⟨rfl, h⟩
  rcases connHeader m with e1 | ⟨c, q, st, m⟩ <;> simp only
  · exact ⟨rfl, h⟩
  rw [h.2.2.1]
  split_ifs
  · obtain ⟨h1, h2⟩ := msgCode_same hR m h
    rcases hx : msgCodeDecode m s with ⟨r, t⟩
    rcases hy : msgCodeDecode m s' with ⟨r', t'⟩
    rw [hx, hy] at h1 h2
    simp only at h1 h2
    subst h1
    rcases r with e | r
    · exact ⟨rfl, h2⟩
    · exact ⟨rfl, h2⟩
  · exact ⟨rfl, h⟩
  · exact ⟨rfl, h⟩

theorem ip_same (m : Msg) {s s' : State} (h : AgreeBy R s s') : Same R (ipHeaderDecode m s) (ipHeaderDecode m s') := by
  unfold ipHeaderDecode
  rcases octect m with e1 | ⟨b1, m⟩ <;> simp only
  · exact ⟨rfl, h⟩
  rcases octect m with e1 | ⟨b2, m⟩ <;> simp only
  · exact ⟨rfl, h⟩
  rcases short m with e1 | ⟨b3, m⟩ <;> simp only
  · exact ⟨rfl, h⟩
  split_ifs
  · rcases searchResDecode m with e1 | l
    · exact ⟨rfl, h⟩
    · exact ⟨rfl, h⟩
  · unfold disconnectResDecode
    repeat' (first | split | split_ifs)
    all_goals exact ⟨rfl, h⟩
  · unfold connectResDecode
    repeat' (first | split | split_ifs)
    all_goals exact ⟨rfl, h⟩
  · rcases connectionstateResDecode m with e1 | l
    · exact ⟨rfl, h⟩
    · exact ⟨rfl, h⟩
  · exact tunnelingReq_same hR m h
  · unfold tunnelingAckDecode
    have hl := h.2.2.2
    have hset : AgreeBy R (if s.seqLocal = s.seqLocal then s else s) s' := by simpa using h
    rcases short m with e1 | ⟨b1, m⟩ <;> simp only
    · exact ⟨rfl, h⟩
    rcases connHeader m with e1 | ⟨c, q, st, m⟩ <;> simp only
    · exact ⟨rfl, h⟩
    rw [hl]
    have hs : AgreeBy R (if s'.seqLocal = q then s.setSeqLocal (s'.seqLocal + 1) else s)
        (if s'.seqLocal = q then s'.setSeqLocal (s'.seqLocal + 1) else s') := by
      split_ifs
      · exact ⟨h.1, h.2.1, h.2.2.1, rfl⟩
      · exact h
    rcases errorCode st with e1 | st <;> simp only
    · exact ⟨rfl, hs⟩
    · exact ⟨by rw [hs.2.2.2], hs⟩
  · exact ⟨rfl, h⟩
  · exact ⟨rfl, h⟩

/-- Decoding in states that agree up to related tables. -/
theorem decode_same (m : Msg) {s s' : State} (h : AgreeBy R s s') : Same R (decodeMsg m s) (decodeMsg m s') := by
  unfold decodeMsg
  rw [← h.1]
  cases s.medium with
  | usbHid => exact report_same hR m h
  | knxnetIp => exact ip_same hR m h
  | tp => exact ⟨rfl, h⟩

end

/-- C33: decoding gives the same result in any two states that agree on the medium, the tables and the sequence counters
(whatever was decoded or encoded before), and the states agree afterwards too. -/
theorem c33_independent (m : Msg) {s s' : State} (h : Agree s s') :
    (decodeMsg m s).1 = (decodeMsg m s').1 ∧ Agree (decodeMsg m s).2 (decodeMsg m s').2 := by
  obtain ⟨h1, h2⟩ := decode_same (fun t t' e k l m => by rw [e]) m (agree_iff.1 h)
  exact ⟨h1, agree_iff.2 h2⟩

/-- The results of decoding a sequence of messages. -/
def decodeAll (s : State) : List Msg → List (Except Err Res)
  | [] => []
  | m :: ms => (decodeMsg m s).1 :: decodeAll (decodeMsg m s).2 ms

/-- C33 for whole sessions: any sequence of messages gives the same results. -/
theorem c33_sessions (ms : List Msg) {s s' : State} (h : Agree s s') : decodeAll s ms = decodeAll s' ms := by
  induction ms generalizing s s' with
  | nil => rfl
  | cons m ms ih =>
    obtain ⟨h1, h2⟩ := c33_independent m h
    simp only [decodeAll, h1, ih h2]

example : Agree (exState .usbHid)
    { exState .usbHid with ldata := some LData.default, asap := some ⟨3, none⟩, apci := some 0x80, chan := some 9 } :=
  ⟨rfl, rfl, rfl, rfl, rfl⟩

/-- The ways a KNXnet/IP decoder can end on a state. -/
inductive IpEnds (s : State) : Except Err Res × State → Prop
  | same (r : Except Err Res) : IpEnds s (r, s)
  | channel (r : Except Err Res) (c : Nat) (hc : c < 256) : IpEnds s (r, { s with chan := some c })
  | frame (r : Except Err Res) (l : LData) : IpEnds s (r, { s with ldata := some l })
  | acked (r : Except Err Res) : IpEnds s (r, s.setSeqLocal (s.seqLocal + 1))

theorem ip_ends (m : Msg) (s : State) : IpEnds s (ipHeaderDecode m s) := by
  unfold ipHeaderDecode
  rcases octect m with e1 | ⟨b1, m⟩ <;> simp only
  · exact .same _
  rcases octect m with e1 | ⟨b2, m⟩ <;> simp only
  · exact .same _
  rcases short m with e1 | ⟨b3, m⟩ <;> simp only
  · exact .same _
  split_ifs
  · rcases searchResDecode m with e1 | l
    · exact .same _
    · exact .same _
  · unfold disconnectResDecode
    repeat' (first | split | split_ifs)
    all_goals first | exact .same _ | exact .channel _ 0 (by decide)
  · unfold connectResDecode
    repeat' (first | split | split_ifs)
    all_goals first | exact .same _ | exact .channel _ _ (BitVec.isLt _)
  · rcases connectionstateResDecode m with e1 | l
    · exact .same _
    · exact .same _
  · unfold tunnelingReqDecode
    rcases short m with e1 | ⟨b1, m⟩ <;> simp only
    · exact .same _
    rcases connHeader m with e1 | ⟨c, q, st, m⟩ <;> simp only
    · exact .same _
    split_ifs
    · have := msgCode_ends m s
      generalize msgCodeDecode m s = x at this
      cases this with
      | raises e => exact .same _
      | returns l => exact .same _
      | frame k l b =>
        rcases lDataDecode k s.tables l b with e | r
        · exact .frame _ _
        · exact .frame _ _
    · exact .same _
    · exact .same _
  · unfold tunnelingAckDecode
    rcases short m with e1 | ⟨b1, m⟩ <;> simp only
    · exact .same _
    rcases connHeader m with e1 | ⟨c, q, st, m⟩ <;> simp only
    · exact .same _
    rcases errorCode st with e1 | st <;> simp only <;> split_ifs
    all_goals first | exact .acked _ | exact .same _
  · exact .same _
  · exact .same _

/-- C33: decoding never changes the medium or the tables. -/
theorem c33_tables (m : Msg) (s : State) :
    (decodeMsg m s).2.medium = s.medium ∧ (decodeMsg m s).2.assoc = s.assoc ∧ (decodeMsg m s).2.got = s.got := by
  unfold decodeMsg
  split
  · have := report_ends m s
    generalize reportIdDecode m s = x at this
    cases this <;> exact ⟨rfl, rfl, rfl⟩
  · have := ip_ends m s
    generalize ipHeaderDecode m s = x at this
    cases this <;> exact ⟨rfl, rfl, rfl⟩
  · exact ⟨rfl, rfl, rfl⟩

example : (decodeMsg (tunnelRequest 7 255 (cemi 0x29 [] exTelegram)) (exState .knxnetIp)).2.assoc =
    (exState .knxnetIp).assoc := (c33_tables _ _).2.1

/-! ## C34 -/

/-- C34: octets after the declared data length of a USB report do not influence decoding: not the result, not the state
afterwards. -/
theorem c34_padding (id info len : Byte) (body pad : Msg) (hl : len.toNat ≤ body.length) {s : State}
    (hm : s.medium = .usbHid) :
    decodeMsg ([id, info, len] ++ body ++ pad) s = decodeMsg ([id, info, len] ++ body) s := by
  unfold decodeMsg
  rw [hm]
  simp only [List.cons_append, List.nil_append]
  unfold reportIdDecode
  simp only [octect]
  split_ifs
  · unfold packetInfoDecode
    simp only [octect]
    split_ifs
    · rw [List.take_append_of_le_length hl]
    · rfl
  · rfl

/-- C34 for the second length: within the report, octets after the declared body length do not influence decoding. -/
theorem c34_body (id info len ver hl l1 l2 : Byte) (body pad : Msg)
    (hb : l1.toNat * 256 + l2.toNat + 4 ≤ body.length) (hlen : 4 + body.length < 256)
    (hlen' : 4 + body.length ≤ len.toNat) {s : State} (hm : s.medium = .usbHid) :
    decodeMsg ([id, info, len, ver, hl, l1, l2] ++ body ++ pad) s =
      decodeMsg ([id, info, BitVec.ofNat 8 (4 + body.length), ver, hl, l1, l2] ++ body) s := by
  unfold decodeMsg
  rw [hm]
  simp only [List.cons_append, List.nil_append]
  unfold reportIdDecode
  simp only [octect]
  by_cases h1 : id.toNat = 1
  swap
  · rw [if_neg h1, if_neg h1]
  rw [if_pos h1, if_pos h1]
  unfold packetInfoDecode
  simp only [octect]
  by_cases h2 : getB 0 4 info = 3
  swap
  · rw [if_neg h2, if_neg h2]
  rw [if_pos h2, if_pos h2]
  obtain ⟨n, hn⟩ := Nat.exists_eq_add_of_le hlen'
  have e1 : List.take len.toNat (ver :: hl :: l1 :: l2 :: (body ++ pad)) =
      ver :: hl :: l1 :: l2 :: (body ++ pad.take n) := by
    rw [hn, show 4 + body.length + n = (body.length + n) + 4 by omega]
    simp only [List.take_succ_cons, List.take_append]
    rw [List.take_of_length_le (by omega), Nat.add_sub_cancel_left]
  have e2 : List.take (BitVec.ofNat 8 (4 + body.length)).toNat (ver :: hl :: l1 :: l2 :: body) =
      ver :: hl :: l1 :: l2 :: body := by
    rw [BitVec.toNat_ofNat, Nat.mod_eq_of_lt (by omega)]
    apply List.take_of_length_le
    simp only [List.length_cons]
    omega
  rw [e1, e2]
  unfold protocolVersionDecode headerLengthDecode bodyLengthDecode
  simp only [octect, short, shortOf_eq]
  rw [List.take_append_of_le_length hb]

example : (decodeMsg ([1, 0x13, 19] ++ (usbReport (cemi 0x29 [] exTelegram)).drop 3 ++ [9, 9, 9]) (exState .usbHid)).1 =
    (decodeMsg ([1, 0x13, 19] ++ (usbReport (cemi 0x29 [] exTelegram)).drop 3) (exState .usbHid)).1 := by
  rw [c34_padding _ _ _ _ _ (by decide) rfl]

example : (decodeMsg ([1, 0x13, 14, 0, 8, 0, 2] ++ [15, 2, 0, 0, 3, 1] ++ [7, 7, 7, 7]) (exState .usbHid)).1 =
    .ok (.list [.connectionStatus true]) := by
  rw [c34_body _ _ _ _ _ _ _ [15, 2, 0, 0, 3, 1] [7, 7, 7, 7] (by decide) (by decide) (by decide) rfl]
  decide

/-! ## C35 -/

/-- C35: additional information of any length up to 255 octets and any content is skipped: two frames that differ only
in it are decoded alike, with the same state afterwards, whatever follows. -/
theorem c35_info {s : State} {code : Byte} {info info' rest f f' : Msg} {pre pre' : List OutMsg}
    (hi : info.length < 256) (hi' : info'.length < 256)
    (hc : Carries s ([code, BitVec.ofNat 8 info.length] ++ info ++ rest) f pre)
    (hc' : Carries s ([code, BitVec.ofNat 8 info'.length] ++ info' ++ rest) f' pre') :
    decodeMsg f s = decodeMsg f' s ∧ pre = pre' := by
  have key : ∀ i : Msg, i.length < 256 → msgCodeDecode ([code, BitVec.ofNat 8 i.length] ++ i ++ rest) s =
      msgCodeDecode (code :: 0 :: rest) s := by
    intro i hi
    unfold msgCodeDecode
    simp only [List.cons_append, List.nil_append, octect, BitVec.toNat_ofNat]
    rw [Nat.mod_eq_of_lt (by simpa using hi), List.drop_left]
    rfl
  unfold decodeMsg
  cases hc with
  | usb pad hm hl =>
    cases hc' with
    | usb pad' hm' hl' =>
      rw [hm]
      simp only [usb_open hl, usb_open hl', key _ hi, key _ hi', true_and]
    | ip chan' seq' hm' hs' => rw [hm] at hm'; cases hm'
  | ip chan seq hm hs =>
    cases hc' with
    | usb pad' hm' hl' => rw [hm] at hm'; cases hm'
    | ip chan' seq' hm' hs' =>
      have : seq = seq' := BitVec.eq_of_toNat_eq (hs ▸ hs')
      subst this
      rw [hm]
      simp only [ip_open _ hs, key _ hi, key _ hi', true_and]

example : decodeMsg (usbReport ([0x29, 4] ++ [1, 2, 3, 4] ++ exTelegram.octets) ++ []) (exState .usbHid) =
    decodeMsg (usbReport ([0x29, 0] ++ [] ++ exTelegram.octets) ++ [0, 0]) (exState .usbHid) :=
  (c35_info (info := [1, 2, 3, 4]) (info' := []) (by decide) (by decide) (.usb [] rfl (by decide))
    (.usb [0, 0] rfl (by decide))).1

/-! ## C36 -/

/-- C36 on USB: a report with another report id, packet type, protocol version, header length, protocol id, EMI id or
message code yields the empty list and leaves the state unchanged. -/
theorem c36_usb (id info len ver hl l1 l2 pid eid m1 m2 code ail : Byte) (rest : Msg) {s : State}
    (hm : s.medium = .usbHid) (hlen : 10 ≤ len.toNat) (hb : 2 ≤ l1.toNat * 256 + l2.toNat)
    (h : id ≠ 0x01 ∨ info.toNat % 16 ≠ 3 ∨ ver ≠ 0 ∨ hl ≠ 8 ∨ (pid ≠ 0x01 ∧ pid ≠ 0x0F) ∨
      pid = 0x01 ∧ (eid ≠ 0x03 ∨ m1 ≠ 0 ∨ m2 ≠ 0 ∨ (code ≠ 0x29 ∧ code ≠ 0x2E))) :
    decodeMsg ([id, info, len, ver, hl, l1, l2, pid, eid, m1, m2, code, ail] ++ rest) s = (.ok (.list []), s) := by
  have ne : ∀ a b : Byte, a ≠ b ↔ a.toNat ≠ b.toNat := fun a b => not_congr BitVec.toNat_inj.symm
  simp only [ne] at h
  unfold decodeMsg
  rw [hm]
  simp only [List.cons_append, List.nil_append]
  unfold reportIdDecode
  simp only [octect]
  by_cases h1 : id.toNat = 1
  swap
  · rw [if_neg h1]; rfl
  rw [if_pos h1]
  unfold packetInfoDecode
  simp only [octect]
  by_cases h2 : getB 0 4 info = 3
  swap
  · rw [if_neg h2]; rfl
  rw [if_pos h2]
  obtain ⟨n, hn⟩ := Nat.exists_eq_add_of_le hlen
  rw [hn, show 10 + n = n + 10 by omega]
  simp only [List.take_succ_cons]
  unfold protocolVersionDecode
  simp only [octect]
  by_cases h3 : ver.toNat = 0
  swap
  · rw [if_neg h3]; rfl
  rw [if_pos h3]
  unfold headerLengthDecode
  simp only [octect]
  by_cases h4 : hl.toNat = 8
  swap
  · rw [if_neg h4]; rfl
  rw [if_pos h4]
  unfold bodyLengthDecode
  simp only [short, shortOf_eq]
  obtain ⟨k, hk⟩ := Nat.exists_eq_add_of_le hb
  rw [hk, show 2 + k + 4 = k + 6 by omega]
  simp only [List.take_succ_cons]
  generalize List.take k (List.take n rest) = rest
  unfold protocolIdDecode
  simp only [octect]
  by_cases h5 : pid.toNat = 1
  swap
  · rw [if_neg h5]
    by_cases h6 : pid.toNat = 15
    · exfalso
      unfold getB getField at h2
      have h2' : info.toNat % 16 = 3 := by simpa using h2
      rcases h with h | h | h | h | h | h
      · exact h h1
      · exact h h2'
      · exact h h3
      · exact h h4
      · exact h.2 h6
      · exact h5 (by rw [h.1]; rfl)
    · rw [if_neg h6]; rfl
  rw [if_pos h5]
  unfold emiIdDecode
  simp only [octect]
  by_cases h6 : eid.toNat = 3
  swap
  · rw [if_neg h6]; rfl
  rw [if_pos h6]
  simp only [short, shortOf_eq]
  by_cases h7 : m1.toNat * 256 + m2.toNat = 0
  swap
  · rw [if_neg h7]; rfl
  rw [if_pos h7]
  unfold msgCodeDecode
  simp only [octect]
  have h7' : m1.toNat = 0 ∧ m2.toNat = 0 := by omega
  unfold getB getField at h2
  have h2' : info.toNat % 16 = 3 := by simpa using h2
  have hcode : code.toNat ≠ 0x29 ∧ code.toNat ≠ 0x2E := by
    rcases h with h | h | h | h | h | ⟨-, h | h | h | h⟩
    · exact absurd h1 h
    · exact absurd h2' h
    · exact absurd h3 h
    · exact absurd h4 h
    · exact absurd h5 h.1
    · exact absurd h6 h
    · exact absurd h7'.1 h
    · exact absurd h7'.2 h
    · exact h
  rw [if_neg hcode.1, if_neg hcode.2]
  rfl

/-- C36 on USB for reports of any length: a foreign report id or packet type alone is enough. -/
theorem c36_usb_short (id : Byte) (rest : Msg) {s : State} (hm : s.medium = .usbHid)
    (h : id ≠ 0x01 ∨ ∃ info body, rest = info :: body ∧ info.toNat % 16 ≠ 3) :
    decodeMsg (id :: rest) s = (.ok (.list []), s) := by
  unfold decodeMsg
  rw [hm]
  simp only
  unfold reportIdDecode
  simp only [octect]
  by_cases h1 : id.toNat = 1
  swap
  · rw [if_neg h1]; rfl
  rw [if_pos h1]
  rcases h with h | ⟨info, body, rfl, h⟩
  · exact absurd (BitVec.eq_of_toNat_eq h1) h
  unfold packetInfoDecode
  simp only [octect]
  rw [if_neg]
  · rfl
  · unfold getB getField
    simpa using h

/-- Opening a report down to the protocol version. -/
theorem usb_peel {info len : Byte} {body : Msg} {s : State} (hm : s.medium = .usbHid) (hi : info.toNat % 16 = 3) :
    decodeMsg ([0x01, info, len] ++ body) s = protocolVersionDecode (body.take len.toNat) s := by
  unfold decodeMsg
  rw [hm]
  simp only [List.cons_append, List.nil_append]
  unfold reportIdDecode
  simp only [octect]
  rw [if_pos (by decide)]
  unfold packetInfoDecode
  simp only [octect]
  rw [if_pos (by unfold getB getField; simpa using hi)]

/-- C36 on USB, for reports as short as they can be: the octets up to the foreign one suffice, whether or not anything
follows. -/
theorem c36_usb_prefix (info len l1 l2 : Byte) (rest : Msg) {s : State} (hm : s.medium = .usbHid)
    (hi : info.toNat % 16 = 3) :
    (∀ ver : Byte, ver ≠ 0 → 1 ≤ len.toNat → decodeMsg ([0x01, info, len, ver] ++ rest) s = (.ok (.list []), s)) ∧
    (∀ hl : Byte, hl ≠ 8 → 2 ≤ len.toNat → decodeMsg ([0x01, info, len, 0, hl] ++ rest) s = (.ok (.list []), s)) ∧
    (∀ pid : Byte, pid ≠ 1 → pid ≠ 15 → 5 ≤ len.toNat →
      decodeMsg ([0x01, info, len, 0, 8, l1, l2, pid] ++ rest) s = (.ok (.list []), s)) ∧
    (∀ eid : Byte, eid ≠ 3 → 6 ≤ len.toNat →
      decodeMsg ([0x01, info, len, 0, 8, l1, l2, 1, eid] ++ rest) s = (.ok (.list []), s)) ∧
    (∀ m1 m2 : Byte, (m1 ≠ 0 ∨ m2 ≠ 0) → 8 ≤ len.toNat →
      decodeMsg ([0x01, info, len, 0, 8, l1, l2, 1, 3, m1, m2] ++ rest) s = (.ok (.list []), s)) := by
  have ne : ∀ (a b : Byte) (n : Nat), b.toNat = n → a ≠ b → a.toNat ≠ n :=
    fun a b n hn h h' => h (BitVec.eq_of_toNat_eq (h'.trans hn.symm))
  refine ⟨?_, ?_, ?_, ?_, ?_⟩
  · intro ver hv hlen
    obtain ⟨n, hn⟩ := Nat.exists_eq_add_of_le hlen
    have := usb_peel (len := len) (body := ver :: rest) hm hi
    refine this.trans ?_
    rw [hn, show 1 + n = n + 1 by omega, List.take_succ_cons]
    unfold protocolVersionDecode
    simp only [octect]
    rw [if_neg (ne _ _ _ (by decide) hv)]
    rfl
  · intro hl hv hlen
    obtain ⟨n, hn⟩ := Nat.exists_eq_add_of_le hlen
    have := usb_peel (len := len) (body := 0 :: hl :: rest) hm hi
    refine this.trans ?_
    rw [hn, show 2 + n = n + 2 by omega]
    simp only [List.take_succ_cons]
    unfold protocolVersionDecode headerLengthDecode
    simp only [octect]
    rw [if_pos (by decide), if_neg (ne _ _ _ (by decide) hv)]
    rfl
  · intro pid h1 h2 hlen
    obtain ⟨n, hn⟩ := Nat.exists_eq_add_of_le hlen
    have := usb_peel (len := len) (body := 0 :: 8 :: l1 :: l2 :: pid :: rest) hm hi
    refine this.trans ?_
    rw [hn, show 5 + n = n + 5 by omega]
    simp only [List.take_succ_cons]
    unfold protocolVersionDecode headerLengthDecode bodyLengthDecode
    simp only [octect, short, shortOf_eq]
    rw [if_pos (by decide), if_pos (by decide)]
    unfold protocolIdDecode
    simp only [List.take_succ_cons, octect]
    rw [if_neg (ne _ _ _ (by decide) h1), if_neg (ne _ _ _ (by decide) h2)]
    rfl
  · intro eid h1 hlen
    obtain ⟨n, hn⟩ := Nat.exists_eq_add_of_le hlen
    have := usb_peel (len := len) (body := 0 :: 8 :: l1 :: l2 :: 1 :: eid :: rest) hm hi
    refine this.trans ?_
    rw [hn, show 6 + n = n + 6 by omega]
    simp only [List.take_succ_cons]
    unfold protocolVersionDecode headerLengthDecode bodyLengthDecode
    simp only [octect, short, shortOf_eq]
    rw [if_pos (by decide), if_pos (by decide)]
    unfold protocolIdDecode emiIdDecode
    simp only [List.take_succ_cons, octect]
    rw [if_pos (by decide), if_neg (ne _ _ _ (by decide) h1)]
    rfl
  · intro m1 m2 h1 hlen
    obtain ⟨n, hn⟩ := Nat.exists_eq_add_of_le hlen
    have := usb_peel (len := len) (body := 0 :: 8 :: l1 :: l2 :: 1 :: 3 :: m1 :: m2 :: rest) hm hi
    refine this.trans ?_
    rw [hn, show 8 + n = n + 8 by omega]
    simp only [List.take_succ_cons]
    unfold protocolVersionDecode headerLengthDecode bodyLengthDecode
    simp only [octect, short, shortOf_eq]
    rw [if_pos (by decide), if_pos (by decide)]
    unfold protocolIdDecode emiIdDecode
    simp only [List.take_succ_cons, octect, short, shortOf_eq]
    rw [if_pos (by decide), if_pos (by decide), if_neg]
    · rfl
    · rcases h1 with h1 | h1
      · have : m1.toNat ≠ 0 := ne _ _ _ (by decide) h1
        omega
      · have : m2.toNat ≠ 0 := ne _ _ _ (by decide) h1
        omega

example : decodeMsg ([0x01, 0x13, 1, 5] ++ []) (exState .usbHid) = (.ok (.list []), exState .usbHid) :=
  (c36_usb_prefix 0x13 1 0 0 [] rfl (by decide)).1 5 (by decide) (by decide)

/-- C36 on KNXnet/IP: a datagram with another header length, protocol version or an unknown service yields the empty list
and leaves the state unchanged. -/
theorem c36_ip (h v s1 s2 : Byte) (rest : Msg) {s : State} (hm : s.medium = .knxnetIp)
    (hf : h ≠ 0x06 ∨ v ≠ 0x10 ∨
      [s1, s2] ∉ [[0x02, 0x02], [0x02, 0x06], [0x02, 0x08], [0x02, 0x0A], [0x04, 0x20], [0x04, 0x21]]) :
    decodeMsg ([h, v, s1, s2] ++ rest) s = (.ok (.list []), s) := by
  unfold decodeMsg
  rw [hm]
  simp only [List.cons_append, List.nil_append]
  unfold ipHeaderDecode
  simp only [octect, short, shortOf_eq]
  by_cases hh : h.toNat = 6 ∧ v.toNat = 16
  swap
  · rw [if_neg hh]; rfl
  rw [if_pos hh]
  have hs : [s1, s2] ∉ [[0x02, 0x02], [0x02, 0x06], [0x02, 0x08], [0x02, 0x0A], [0x04, 0x20], [0x04, 0x21]] := by
    rcases hf with hf | hf | hf
    · exact absurd (BitVec.eq_of_toNat_eq hh.1) hf
    · exact absurd (BitVec.eq_of_toNat_eq hh.2) hf
    · exact hf
  have e2 := s2.isLt
  have key : ∀ a b : Byte, ∀ n, a.toNat * 256 + b.toNat = n → [s1, s2] ≠ [a, b] → s1.toNat * 256 + s2.toNat ≠ n := by
    intro a b n hn hne he
    have hb := b.isLt
    apply hne
    have g1 : s1 = a := BitVec.eq_of_toNat_eq (by omega)
    have g2 : s2 = b := BitVec.eq_of_toNat_eq (by omega)
    rw [g1, g2]
  simp only [List.mem_cons, not_or, List.not_mem_nil, not_false_eq_true, and_true] at hs
  obtain ⟨n1, n2, n3, n4, n5, n6⟩ := hs
  rw [if_neg (key _ _ 0x0202 (by decide) n1), if_neg (key _ _ 0x020A (by decide) n4),
    if_neg (key _ _ 0x0206 (by decide) n2), if_neg (key _ _ 0x0208 (by decide) n3),
    if_neg (key _ _ 0x0420 (by decide) n5), if_neg (key _ _ 0x0421 (by decide) n6)]
  rfl

example : decodeMsg ([1, 0x13, 10, 0, 8, 0, 2, 1, 3, 0, 0, 0x11, 0] ++ [1, 2, 3]) (exState .usbHid) =
    (.ok (.list []), exState .usbHid) :=
  c36_usb _ _ _ _ _ _ _ _ _ _ _ _ _ _ rfl (by decide) (by decide)
    (by decide)

example : decodeMsg [2] (exState .usbHid) = (.ok (.list []), exState .usbHid) :=
  c36_usb_short _ _ rfl (.inl (by decide))

example : decodeMsg ([0x06, 0x10, 0x05, 0x30] ++ [0, 6]) (exState .knxnetIp) = (.ok (.list []), exState .knxnetIp) :=
  c36_ip _ _ _ _ _ rfl (by decide)

/-! ## C52 -/

/-- What a device feature report says: feature 3 is the bus connection status, feature 5 the active EMI type. -/
def Spec.feature (fid value : Byte) : List OutMsg :=
  if fid = 3 then
    if value = 0 then [.connectionStatus false] else if value = 1 then [.connectionStatus true] else []
  else if fid = 5 then
    if value = 3 then [.emiType .cEMI] else if value = 1 then [.emiType .emi1]
    else if value = 2 then [.emiType .emi2] else []
  else []

theorem service_feature (sid m1 m2 fid value : Byte) (rest : Msg) :
    serviceDecode (sid :: m1 :: m2 :: fid :: value :: rest) =
      .ok (if (sid = 2 ∨ sid = 4) ∧ m1 = 0 ∧ m2 = 0 then Spec.feature fid value else []) := by
  have eq : ∀ a b : Byte, a = b ↔ a.toNat = b.toNat := fun a b => BitVec.toNat_inj.symm
  have hf : featureDecode (fid :: value :: rest) = .ok (Spec.feature fid value) := by
    unfold featureDecode Spec.feature
    simp only [octect, eq]
    rw [show (3 : Byte).toNat = 3 from rfl, show (5 : Byte).toNat = 5 from rfl, show (0 : Byte).toNat = 0 from rfl,
      show (1 : Byte).toNat = 1 from rfl, show (2 : Byte).toNat = 2 from rfl]
    split_ifs <;> rfl
  have hb : ∀ r, serviceBranch (m1 :: m2 :: fid :: value :: rest) r =
      .ok (m1.toNat * 256 + m2.toNat, if m1 = 0 ∧ m2 = 0 then Spec.feature fid value else r) := by
    intro r
    unfold serviceBranch
    simp only [short, shortOf_eq, hf, eq]
    rw [show (0 : Byte).toNat = 0 from rfl]
    by_cases h0 : m1.toNat * 256 + m2.toNat = 0
    · rw [if_pos h0, if_pos (by omega)]
    · rw [if_neg h0, if_neg (by omega)]
  unfold serviceDecode
  simp only [octect, hb]
  have h4 : sid = 4 ↔ sid.toNat = 4 := eq _ _
  have h2 : sid = 2 ↔ sid.toNat = 2 := eq _ _
  have z1 : m1 = 0 ↔ m1.toNat = 0 := eq _ _
  have z2 : m2 = 0 ↔ m2.toNat = 0 := eq _ _
  by_cases c4 : sid.toNat = 4
  · simp only [c4, if_true, h4, h2, or_true, true_and]
    by_cases hz : m1 = 0 ∧ m2 = 0
    · have : ¬ m1.toNat * 256 + m2.toNat = 2 := by
        rw [z1, z2] at hz
        omega
      simp only [this, if_false]
    · simp only [hz, if_false]
      split_ifs <;> rfl
  · simp only [c4, if_false, h4, h2, or_false]
    by_cases c2 : sid.toNat = 2
    · simp only [c2, if_true, true_and]
    · simp only [c2, if_false, false_and]

/-- C52: a bus access server feature response (2) or info (4) report yields the bus connection status or active EMI type
it carries and nothing else; reports of other services or manufacturers yield nothing; the state is unchanged and the
tables play no role (they may be absent). -/
theorem c52_features (info len l1 l2 sid m1 m2 fid value : Byte) (rest : Msg) {s : State}
    (hm : s.medium = .usbHid) (hi : info.toNat % 16 = 3) (hlen : 10 ≤ len.toNat) (hb : 2 ≤ l1.toNat * 256 + l2.toNat) :
    decodeMsg ([0x01, info, len, 0x00, 0x08, l1, l2, 0x0F, sid, m1, m2, fid, value] ++ rest) s =
      (.ok (.list (if (sid = 2 ∨ sid = 4) ∧ m1 = 0 ∧ m2 = 0 then Spec.feature fid value else [])), s) := by
  unfold decodeMsg
  rw [hm]
  simp only [List.cons_append, List.nil_append]
  unfold reportIdDecode
  simp only [octect]
  rw [if_pos (by decide)]
  unfold packetInfoDecode
  simp only [octect]
  rw [if_pos (by unfold getB getField; simpa using hi)]
  obtain ⟨n, hn⟩ := Nat.exists_eq_add_of_le hlen
  rw [hn, show 10 + n = n + 10 by omega]
  simp only [List.take_succ_cons]
  unfold protocolVersionDecode
  simp only [octect]
  rw [if_pos (by decide)]
  unfold headerLengthDecode
  simp only [octect]
  rw [if_pos (by decide)]
  unfold bodyLengthDecode
  simp only [short, shortOf_eq]
  obtain ⟨k, hk⟩ := Nat.exists_eq_add_of_le hb
  rw [hk, show 2 + k + 4 = k + 6 by omega]
  simp only [List.take_succ_cons]
  unfold protocolIdDecode
  simp only [octect]
  rw [if_neg (by decide), if_pos (by decide), service_feature]
  rfl

example : decodeMsg [1, 0x13, 11, 0, 8, 0, 3, 15, 4, 0, 0, 5, 3] (State.init .usbHid none none) =
    (.ok (.list [.emiType .cEMI]), State.init .usbHid none none) :=
  c52_features 0x13 11 0 3 4 0 0 5 3 [] rfl (by decide) (by decide) (by decide)

end Knx
