import Verif.Spec.Complaint
import Verif.Props.Encoding
import Verif.Props.Text

/-! # C71: when encoding raises, and what -/

namespace Knx
open Spec

/-- What raised, if anything. -/
def raised (r : Except Err Msg) : Option Err :=
  match r with
  | .error e => some e
  | .ok _ => none

theorem raised_iff {r : Except Err Msg} {e : Err} : r = .error e ↔ raised r = some e := by
  cases r <;> simp [raised]

theorem finish_raised (s : State) (m : Msg) : raised (finish .req s m) = needsChannel s := by
  unfold finish envelope needsChannel
  cases hm : s.medium with
  | usbHid => simp [raised]
  | tp => simp [raised]
  | knxnetIp => cases hc : s.chan <;> simp [raised]

theorem keys_get (t : AssocTable) (asap : Asap) :
    dictGet Asap.eq t.asapAddrs asap = none ↔ asap.value ∉ t.absDict.map Prod.fst := by
  rw [dictGet_eq_none asap_keyEq]
  unfold AssocTable.absDict
  rw [List.map_map, List.mem_map]
  push Not
  exact ⟨fun h p hp he => h p hp he, fun h p hp he => h p hp he⟩

theorem send_raised (t : AssocTable) (asap : Asap) : (match t.sendAddresses asap with
      | .error e => some e
      | .ok _ => none) =
    if asap.value ∉ t.absDict.map Prod.fst then some .keyError
    else if ∀ x ∈ addressesOf t.absDict asap.value, x ∈ t.at_.gas.map Addr.fs ∨ x = t.at_.ind.fs then none
    else some Err.typeError := by
  cases hd : dictGet Asap.eq t.asapAddrs asap with
  | none =>
    rw [AssocTable.send_unknown hd, if_pos ((keys_get t asap).1 hd)]
  | some l =>
    rw [if_neg fun h => by rw [(keys_get t asap).2 h] at hd; cases hd]
    have hl := AssocTable.absDict_get t asap
    rw [hd] at hl
    simp only [Option.getD_some] at hl
    by_cases hr : ∀ a ∈ l, t.at_.getTsap a ≠ none
    · rw [AssocTable.send_resolved hd hr, if_pos]
      exact (send_listed (AssocTable.send_resolved hd hr)).2 |> fun h => by rw [← hl]; exact h
    · rw [if_neg]
      · push Not at hr
        unfold AssocTable.sendAddresses AssocTable.getTsaps
        rw [hd]
        simp only
        rw [AssocTable.getAddresses_unresolved hr]
      · intro hc
        refine hr fun a ha hn => ?_
        rw [AddressTable.getTsap_none] at hn
        rcases hc a.fs (by rw [← hl]; exact List.mem_map.2 ⟨a, ha, rfl⟩) with h | h
        · exact hn.1 h
        · exact hn.2 h

theorem group_raised {s : State} {a : AssocTable} (ha : s.assoc = some a) (asap : Asap) {r : Option Err}
    {f : Except Err Msg} {g : BitVec 16 → Except Err Msg} (hf : raised f = r) (hg : ∀ x, raised (g x) = r) :
    raised (match a.sendAddresses asap with
      | .error e => .error e
      | .ok [] => f
      | .ok (x :: _) => g x) = (needsAddress s asap.value).or r := by
  have h := send_raised a asap
  unfold needsAddress
  rw [ha]
  simp only
  rw [← h]
  rcases a.sendAddresses asap with e | l
  · rfl
  · cases l with
    | nil => simp [hf]
    | cons x l => simp [hg]

/-- C71: encoding raises exactly when something the message needs is missing: a connection, a type, associations, an
address table entry, a table or hex digits; and the exception tells the first thing missing. -/
theorem c71 (m : InMsg) (s : State) (e : Err) : (encodeMsg m s).1 = .error e ↔ complaint s m = some e := by
  rw [raised_iff]
  suffices h : raised (encodeMsg m s).1 = complaint s m by rw [h]
  cases m with
  | connectReq => rfl
  | searchReq => rfl
  | disconnectReq ip port =>
    change raised (channelReqEncode _ s ip port) = _
    unfold channelReqEncode complaint
    cases s.chan <;> rfl
  | connectionstateReq ip port =>
    change raised (channelReqEncode _ s ip port) = _
    unfold channelReqEncode complaint
    cases s.chan <;> rfl
  | tunnelingAck seq status =>
    change raised (tunnelingAckEncode seq status s).1 = _
    unfold tunnelingAckEncode connectionHeader complaint
    cases s.chan <;> rfl
  | groupRead asap =>
    change raised (groupReadEncode asap s).1 = _
    unfold complaint
    simp only
    obtain ha | ⟨a, ha⟩ : s.assoc = none ∨ ∃ a, s.assoc = some a := by cases s.assoc <;> simp
    · unfold needsAddress
      rw [ha]
      unfold groupReadEncode tDataGroupEncode State.getTsaps
      simp only [ha]
      rfl
    · rw [groupRead_eq ha]
      exact group_raised ha asap (finish_raised _ _) fun x => finish_raised s (cemi 0x11 [] (readTelegram x))
  | groupWriteReq asap d =>
    change raised (groupWriteEncode .req asap d s).1 = _
    unfold complaint
    simp only
    obtain hg | ⟨g, hg⟩ : s.got = none ∨ ∃ g, s.got = some g := by cases s.got <;> simp
    · unfold needsType
      rw [hg]
      unfold groupWriteEncode State.getDpt
      simp only [hg]
      rfl
    · unfold needsType
      rw [hg]
      simp only
      obtain ha | ⟨a, ha⟩ : s.assoc = none ∨ ∃ a, s.assoc = some a := by cases s.assoc <;> simp
      · unfold groupWriteEncode State.getDpt
        simp only [hg]
        rw [lookup_typeIn]
        rcases typeIn g asap.value with _ | c
        · rfl
        · unfold tDataGroupEncode State.getTsaps needsAddress
          simp only [ha]
          rfl
      · rw [groupWrite_eq .req ha hg]
        simp only
        rcases typeIn g asap.value with _ | c
        · rfl
        · simp only [reduceCtorEq, if_false, Option.none_or]
          exact group_raised ha asap (finish_raised _ _) fun x => finish_raised s (cemi 0x11 [] (writeTelegram x c d.raw))
  | groupWriteInd asap d =>
    change raised (groupWriteEncode .ind asap d s).1 = _
    unfold complaint
    simp only
    obtain hg | ⟨g, hg⟩ : s.got = none ∨ ∃ g, s.got = some g := by cases s.got <;> simp
    · unfold needsType
      rw [hg]
      unfold groupWriteEncode State.getDpt
      simp only [hg]
      rfl
    · unfold needsType
      rw [hg]
      simp only
      obtain ha | ⟨a, ha⟩ : s.assoc = none ∨ ∃ a, s.assoc = some a := by cases s.assoc <;> simp
      · unfold groupWriteEncode State.getDpt
        simp only [hg]
        rw [lookup_typeIn]
        rcases typeIn g asap.value with _ | c
        · rfl
        · unfold tDataGroupEncode State.getTsaps needsAddress
          simp only [ha]
          rfl
      · rw [groupWrite_eq .ind ha hg]
        simp only
        rcases typeIn g asap.value with _ | c
        · rfl
        · simp only [reduceCtorEq, if_false, Option.none_or]
          have := group_raised ha asap (r := none) (f := finish .ind s ([encCode .ind, 0, 0x96, 0xE0, 0, 0] ++ groupWritePayload c d.raw))
            (g := fun x => finish .ind s (cemi (encCode .ind) [] (writeTelegram x c d.raw))) rfl fun _ => rfl
          rw [Option.or_none] at this
          exact this
  | propertyRead asap oi pid n si =>
    change raised (propertyReadEncode asap oi pid n si s).1 = _
    unfold complaint needsTable
    simp only
    obtain ha | ⟨a, ha⟩ : s.assoc = none ∨ ∃ a, s.assoc = some a := by cases s.assoc <;> simp
    · unfold propertyReadEncode tDataIndividualEncode nDataIndividualEncode Tables.individualAddress State.tables
      simp only [ha]
      rfl
    · rw [propertyRead_eq ha]
      simp only [ha, reduceCtorEq, if_false, Option.none_or]
      exact finish_raised _ _
  | propertyWrite asap oi pid n si data =>
    change raised (propertyWriteEncode asap oi pid n si data s).1 = _
    unfold complaint needsTable
    simp only
    by_cases hx : ∃ c ∈ data, ¬ IsPyDigit c
    · rw [if_pos hx]
      unfold propertyWriteEncode
      simp only
      rw [(c02_error_iff data .valueError).2 ⟨rfl, hx⟩]
      rfl
    · rw [if_neg hx]
      obtain ⟨d, hd⟩ : ∃ d, stringToOctets data = .ok d := by
        rcases h : stringToOctets data with e | d
        · exact absurd ((c02_error_iff data e).1 h).2 hx
        · exact ⟨d, rfl⟩
      obtain ha | ⟨a, ha⟩ : s.assoc = none ∨ ∃ a, s.assoc = some a := by cases s.assoc <;> simp
      · unfold propertyWriteEncode tDataIndividualEncode nDataIndividualEncode Tables.individualAddress State.tables
        simp only [ha, hd]
        rfl
      · rw [propertyWrite_eq ha]
        simp only [hd, ha, reduceCtorEq, if_false, Option.none_or]
        exact finish_raised _ _

/-- A group write needs a type, a property write hex digits, a group read on KNXnet/IP a channel. -/
example : (encodeMsg (.groupWriteReq ⟨9, none⟩ ⟨.switch, 1⟩) (exState .usbHid)).1 = .error .keyError :=
  (c71 _ _ _).2 (by decide +kernel)
example : (encodeMsg (.propertyWrite ⟨0, none⟩ 0 11 1 1 "1G".toList) (exState .usbHid)).1 = .error .valueError :=
  (c71 _ _ _).2 (by decide +kernel)
example : (encodeMsg (.groupRead ⟨7, none⟩) (State.init .knxnetIp (some ((AssocTable.init exAt []).2.afterAll exOps)) none)).1 =
    .error .attributeError := by
  have hk : (7 : Int) ∈ ((AssocTable.init exAt []).2.afterAll exOps).absDict.map Prod.fst := by decide +kernel
  have hx : addressesOf ((AssocTable.init exAt []).2.afterAll exOps).absDict 7 = [0x0E89, 0x0001] := by decide +kernel
  have hg : ((AssocTable.init exAt []).2.afterAll exOps).at_.gas.map Addr.fs = [0x0001, 0x0E89] := by decide +kernel
  refine (c71 _ _ _).2 ?_
  unfold complaint needsAddress
  simp only [State.init]
  rw [if_neg (not_not.2 hk), if_pos (by rw [hx, hg]; simp)]
  rfl

/-- C71: in a device with associations made by successful calls that disassociate no shared address, with a channel if on
KNXnet/IP, nothing raises for an associated ASAP, for writes if it has a type. -/
theorem c71_history (at_ : AddressTable) (ops : List AssocTable.Op) (hops : ∀ op ∈ ops, op.Proper at_.ind)
    (hok : AssocTable.AllOk (AssocTable.init at_ []).2 ops) (hx : Spec.Exclusive at_.ind.fs (Spec.fresh at_.ind.fs) ops)
    {s : State} (ha : s.assoc = some ((AssocTable.init at_ []).2.afterAll ops)) {g : GroupObjectTable} (hg : s.got = some g)
    (hc : s.medium = .knxnetIp → s.chan ≠ none) (asap : Asap)
    (hv : asap.value ∈ (Spec.follow (Spec.fresh at_.ind.fs) ops).map Prod.fst) :
    (∃ f, (encodeMsg (.groupRead asap) s).1 = .ok f) ∧
    (typeIn g asap.value ≠ none → ∀ d, (∃ f, (encodeMsg (.groupWriteReq asap d) s).1 = .ok f) ∧
      ∃ f, (encodeMsg (.groupWriteInd asap d) s).1 = .ok f) ∧
    (∀ oi pid n si, ∃ f, (encodeMsg (.propertyRead asap oi pid n si) s).1 = .ok f) ∧
    ∀ oi pid n si data, (∀ c ∈ data, IsPyDigit c) → ∃ f, (encodeMsg (.propertyWrite asap oi pid n si data) s).1 = .ok f := by
  have hfine : ∀ m, complaint s m = none → ∃ f, (encodeMsg m s).1 = .ok f := by
    intro m hm
    rcases h : (encodeMsg m s).1 with e | f
    · rw [c71, hm] at h
      cases h
    · exact ⟨f, rfl⟩
  obtain ⟨hk, hb⟩ := c09_reachable at_ ops hops hok hx
  obtain ⟨-, hat, hd, hb0⟩ := init_fresh at_
  obtain ⟨e1, -, -⟩ := history_ok hb0 (by rw [hat]; exact hops) hok
  rw [hd] at e1
  have hch : needsChannel s = none := by
    unfold needsChannel
    rw [if_neg fun h => hc h.1 h.2]
  have had : needsAddress s asap.value = none := by
    unfold needsAddress
    rw [ha]
    simp only
    rw [if_neg (by rw [e1]; exact fun h => h hv), if_pos]
    intro x hx
    have hm := AssocTable.absDict_get ((AssocTable.init at_ []).2.afterAll ops) asap
    rw [← hm] at hx
    cases hdict : dictGet Asap.eq ((AssocTable.init at_ []).2.afterAll ops).asapAddrs asap with
    | none => rw [hdict] at hx; cases hx
    | some l =>
      rw [hdict] at hx
      obtain ⟨k', hk', -⟩ := dictGet_mem asap_keyEq hdict
      exact hk x ((total_pos _ _).2 ⟨(k'.value, l.map Addr.fs), List.mem_map.2 ⟨_, hk', rfl⟩, hx⟩)
  have htb : needsTable s = none := by
    unfold needsTable
    rw [ha]
    rfl
  refine ⟨hfine _ ?_, fun ht d => ?_, fun oi pid n si => hfine _ ?_, fun oi pid n si data hh => hfine _ ?_⟩
  · show (needsAddress s asap.value).or (needsChannel s) = none
    rw [had, hch]
    rfl
  · have hty : needsType s asap.value = none := by
      unfold needsType
      rw [hg]
      simp only
      rw [if_neg ht]
    refine ⟨hfine _ ?_, hfine _ ?_⟩
    · show ((needsType s asap.value).or (needsAddress s asap.value)).or (needsChannel s) = none
      rw [hty, had, hch]
      rfl
    · show (needsType s asap.value).or (needsAddress s asap.value) = none
      rw [hty, had]
      rfl
  · show (needsTable s).or (needsChannel s) = none
    rw [htb, hch]
    rfl
  · show (if ∃ c ∈ data, ¬ IsPyDigit c then some .valueError else (needsTable s).or (needsChannel s)) = none
    rw [if_neg (by push Not; exact hh), htb, hch]
    rfl

example : ∃ f, (encodeMsg (.groupRead ⟨3, none⟩) (exState .knxnetIp)).1 = .ok f :=
  (c71_history exAt exOps (by decide) (by decide) (by decide) (s := exState .knxnetIp) rfl rfl (by decide) ⟨3, none⟩
    (by decide)).1

end Knx
