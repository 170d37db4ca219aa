import Verif.Spec.DecodeComplaint
import Verif.Props.Individual
import Verif.Props.Decoder
import Verif.Props.Responses

/-! # C113: when decoding raises, and what -/

namespace Knx
open Spec

/-! ## Reading fields -/

theorem front_octet (good : Nat → Bool) (fs : List Field) (m : Msg) :
    front (.octets 1 good :: fs) m =
      match m with
      | [] => .truncated
      | b :: m => if good b.toNat then front fs m else .other := by
  cases m <;> simp [front, number]

theorem front_short (good : Nat → Bool) (fs : List Field) (m : Msg) :
    front (.octets 2 good :: fs) m =
      match short m with
      | .error _ => .truncated
      | .ok (n, m) => if good n then front fs m else .other := by
  rcases m with _ | ⟨a, _ | ⟨b, m⟩⟩ <;> simp [front, number, short, shortOf_eq, Nat.mul_comm]

theorem front_limit (more : Nat) (fs : List Field) (m : Msg) :
    front (.limit 1 more :: fs) m =
      match m with
      | [] => .truncated
      | b :: m => front fs (m.take (b.toNat + more)) := by
  cases m <;> simp [front, number]

theorem front_limit2 (more : Nat) (fs : List Field) (m : Msg) :
    front (.limit 2 more :: fs) m =
      match short m with
      | .error _ => .truncated
      | .ok (n, m) => front fs (m.take (n + more)) := by
  rcases m with _ | ⟨a, _ | ⟨b, m⟩⟩ <;> simp [front, number, short, shortOf_eq, Nat.mul_comm]

theorem short_index {m : Msg} {e : Err} (h : short m = .error e) : e = .indexError := by
  unfold short at h; split at h <;> cases h; rfl

/-! ## Telegrams -/

theorem telegramOf_octets (m : Msg) :
    match telegramOf m with
    | none => LData.makeFrom m = .error .indexError
    | some t => LData.makeFrom m = .ok (ldataOf t, payload t) := by
  rcases m with _ | ⟨c1, _ | ⟨c2, _ | ⟨s1, _ | ⟨s2, _ | ⟨d1, _ | ⟨d2, _ | ⟨n, _ | ⟨tp, _ | ⟨ap, m⟩⟩⟩⟩⟩⟩⟩⟩⟩
  iterate 9 exact rfl
  simp only [telegramOf, LData.makeFrom, octect, short, ldataOf, payload, shortOf_eq, number, List.foldl]
  simp [Nat.mul_comm]

theorem nsdu_group_none {t : Telegram} (hg : t.IsGroup) (hd : ¬ t.IsData) (h0 : t.destination ≠ 0) :
    (ldataOf t).nsdu ≠ some .group := fun h => hd ((nsdu_group hg h0).1 h)

theorem tDataGroup_complaint {s : State} {routes : BitVec 16 → List Int} (hr : Routing s routes) (k : Kind) (t : Telegram) :
    errorOf (tDataGroupDecode k s.tables (ldataOf t) (payload t)) = groupComplaint s routes k t := by
  unfold groupComplaint
  cases ha : s.assoc with
  | none =>
    unfold tDataGroupDecode Tables.getTsap State.tables
    simp only [ha]
    rfl
  | some a =>
    simp only
    by_cases hm : t.destination ∈ a.at_.gas.map Addr.fs
    swap
    · rw [if_pos hm]
      unfold tDataGroupDecode
      have h1 : s.tables.getTsap (ldataOf t).destination = .ok (a.getTsap ⟨0, t.destination⟩) := by
        unfold Tables.getTsap State.tables
        simp only [ha]
        rfl
      rw [h1]
      have hx : AddressTable.index a.at_.gas ⟨0, t.destination⟩ = none := AddressTable.index_none.2 hm
      unfold AssocTable.getTsap AddressTable.getTsap
      rw [hx]
      simp only
      split_ifs <;> rfl
    rw [if_neg (not_not.2 hm)]
    have hroute := hr a ha _ hm
    obtain ⟨n, hn⟩ := getTsap_group hm
    have h1 : s.tables.getTsap (ldataOf t).destination = .ok (some (n + 1)) := by
      unfold Tables.getTsap State.tables
      simp only [ha]
      exact congrArg _ hn
    have hcode : ∀ r : Svc → Except Err (List OutMsg),
        (if (ldataOf t).apciFull = 0 then r .read
          else if ((ldataOf t).apciFull : Int) - (ldataOf t).data = 0x40 then r .response
          else if ((ldataOf t).apciFull : Int) - (ldataOf t).data = 0x80 then r .write
          else .ok []) = match t.service with | none => .ok [] | some svc => r svc := by
      intro r
      simp only [apciFull_ldataOf, data_ldataOf]
      unfold Telegram.service
      by_cases c0 : t.code = 0
      · simp [c0]
      rw [if_neg c0, if_neg c0]
      by_cases c1 : t.code / 64 = 1
      · rw [if_pos (by omega), if_pos c1]
      rw [if_neg (by omega), if_neg c1]
      by_cases c2 : t.code / 64 = 2
      · rw [if_pos (by omega), if_pos c2]
      rw [if_neg (by omega), if_neg c2]
    unfold tDataGroupDecode
    rw [h1]
    simp only
    rw [hcode fun svc => groupServiceDecode svc k s.tables (ldataOf t) (payload t)]
    cases hs : t.service with
    | none => rfl
    | some svc =>
      simp only
      by_cases hv : routes t.destination = []
      · rw [if_pos hv]
        rw [hv] at hroute
        unfold AssocTable.Routes at hroute
        rw [if_pos rfl] at hroute
        have hr' : a.getAsaps (a.getTsap ⟨0, t.destination⟩) = .error .keyError := hroute
        unfold groupServiceDecode groupValueDecode Tables.getAsapsAndDpts Tables.getAsaps State.tables
        simp only [ha]
        rw [show (ldataOf t).destination = t.destination from rfl, hr']
        rfl
      rw [if_neg hv]
      cases hg : s.got with
      | none =>
        simp only
        unfold AssocTable.Routes at hroute
        rw [if_neg hv] at hroute
        obtain ⟨r, hr1, -⟩ := hroute
        have hr' : a.getAsaps (a.getTsap ⟨0, t.destination⟩) = .ok r := hr1
        unfold groupServiceDecode groupValueDecode Tables.getAsapsAndDpts Tables.getAsaps State.tables
        simp only [ha, hg]
        rw [show (ldataOf t).destination = t.destination from rfl, hr']
        rfl
      | some g =>
        simp only
        have h2 := tDataGroup_fanOut ha hg hm hroute hv k
        unfold tDataGroupDecode at h2
        rw [h1] at h2
        simp only at h2
        rw [hcode fun svc => groupServiceDecode svc k s.tables (ldataOf t) (payload t), hs] at h2
        simp only at h2
        rw [h2]
        have : groupMsgs k g (routes t.destination) t = fanOut svc (confOf k t) g (routes t.destination) t.value := by
          unfold groupMsgs
          rw [hs]
        rw [this]
        split_ifs <;> rfl

theorem tDataIndividual_complaint {s : State} (k : Kind) (t : Telegram) :
    errorOf (tDataIndividualDecode k s.tables (ldataOf t) (payload t)) = individualComplaint s k t := by
  unfold individualComplaint
  cases ha : s.assoc with
  | none =>
    unfold tDataIndividualDecode Tables.getTsap Tables.individualAddress State.tables
    simp only [ha]
    cases k <;> rfl
  | some a =>
    simp only
    have hserv : ∀ svc, errorOf (propertyServiceDecode svc k (ldataOf t) (payload t)) =
        if t.rest.length < 4 then some .indexError else none := by
      intro svc
      unfold propertyServiceDecode payload
      rcases t.rest with _ | ⟨o, _ | ⟨p, _ | ⟨q, _ | ⟨r, data⟩⟩⟩⟩
      · rfl
      · rfl
      · rfl
      · rfl
      · rw [if_neg (by simp), if_neg (by simp)]
        rfl
    by_cases hm : Mine a.at_.ind.fs (a.at_.gas.map Addr.fs) k t
    · rw [mine_dispatch ha hm, dispatch_service]
      cases propertyOf t with
      | none => cases k <;> rfl
      | some svc =>
        simp only
        rw [hserv]
        cases k with
        | ind =>
          have hm' : t.source = a.at_.ind.fs := hm
          simp [hm']
        | con =>
          have hm' : t.destination = a.at_.ind.fs ∧ a.at_.ind.fs ∉ a.at_.gas.map Addr.fs := hm
          simp only [← and_assoc]
          simp only [hm', true_and, not_false_eq_true]
    · rw [foreign_nothing ha hm]
      cases propertyOf t with
      | none => cases k <;> rfl
      | some svc =>
        cases k with
        | ind =>
          have hm' : ¬ t.source = a.at_.ind.fs := hm
          simp only [hm', false_and, if_false]
          rfl
        | con =>
          have hm' : ¬ (t.destination = a.at_.ind.fs ∧ a.at_.ind.fs ∉ a.at_.gas.map Addr.fs) := hm
          simp only [← and_assoc]
          simp only [hm', false_and, if_false]
          rfl

theorem lData_complaint {s : State} {routes : BitVec 16 → List Int} (hr : Routing s routes) (k : Kind) (t : Telegram) :
    errorOf (lDataDecode k s.tables (ldataOf t) (payload t)) = telegramComplaint s routes k t := by
  unfold telegramComplaint lDataDecode
  by_cases htg : t.IsGroup
  · have htg' : ¬ t.ctrl2.toNat < 128 := by unfold Telegram.IsGroup at htg; omega
    rw [addressType_group htg, if_neg htg']
    simp only
    by_cases h0 : t.destination = 0
    · rw [if_pos h0, if_neg (show ¬ (ldataOf t).destination ≠ 0 from not_not.2 h0), ite_self]
      rfl
    rw [if_pos (show (ldataOf t).destination ≠ 0 from h0), if_neg h0]
    unfold nDataGroupDecode
    by_cases htd : t.IsData
    · have htd' : ¬ 4 ≤ t.tpci.toNat := by unfold Telegram.IsData at htd; omega
      rw [if_pos ((nsdu_group htg h0).2 htd), if_neg htd', ← tDataGroup_complaint hr]
      cases tDataGroupDecode k s.tables (ldataOf t) (payload t) <;> rfl
    · have htd' : 4 ≤ t.tpci.toNat := by unfold Telegram.IsData at htd; omega
      rw [if_neg (nsdu_group_none htg htd h0), if_pos htd']
      rfl
  · have htg' : t.ctrl2.toNat < 128 := by unfold Telegram.IsGroup at htg; omega
    rw [addressType_individual htg, if_pos htg']
    simp only
    unfold nDataIndividualDecode
    by_cases htd : t.IsData
    · have htd' : ¬ 4 ≤ t.tpci.toNat := by unfold Telegram.IsData at htd; omega
      rw [if_pos ((nsdu_individual htg).2 htd), if_neg htd', ← tDataIndividual_complaint]
      cases tDataIndividualDecode k s.tables (ldataOf t) (payload t) <;> rfl
    · have htd' : 4 ≤ t.tpci.toNat := by unfold Telegram.IsData at htd; omega
      rw [if_neg fun h => htd ((nsdu_individual htg).1 h), if_pos htd']
      rfl

theorem frame_complaint {s : State} {routes : BitVec 16 → List Int} (hr : Routing s routes) (m : Msg) :
    errorOf (msgCodeDecode m s).1 = frameComplaint s routes m := by
  have key : ∀ k m, errorOf (cemiLdataDecode k m s).1 = match telegramOf m with
      | none => some .indexError
      | some t => telegramComplaint s routes k t := by
    intro k m
    unfold cemiLdataDecode
    have h := telegramOf_octets m
    cases ht : telegramOf m with
    | none =>
      rw [ht] at h
      simp only at h
      rw [h]
      rfl
    | some t =>
      rw [ht] at h
      simp only at h
      rw [h]
      exact lData_complaint hr k t
  rcases m with _ | ⟨code, _ | ⟨n, m⟩⟩
  · rfl
  · rfl
  simp only [msgCodeDecode, octect, frameComplaint]
  by_cases c1 : code = 0x29
  · subst c1
    rw [if_pos (by decide), if_pos (by decide), if_pos rfl]
    exact key _ _
  have c1' : ¬ code.toNat = 0x29 := fun h => c1 (BitVec.eq_of_toNat_eq h)
  rw [if_neg c1']
  by_cases c2 : code = 0x2E
  · subst c2
    rw [if_pos (by decide), if_pos (by decide), if_neg (by decide)]
    exact key _ _
  have c2' : ¬ code.toNat = 0x2E := fun h => c2 (BitVec.eq_of_toNat_eq h)
  rw [if_neg c2', if_neg (not_or.2 ⟨c1, c2⟩)]
  rfl

/-! ## Reports -/

theorem feature_complaint (m : Msg) :
    errorOf (serviceDecode m) = match front [.octets 1 (fun n => n = 2 || n = 4), .octets 2 (· = 0),
      .octets 1 (fun n => n = 3 || n = 5), .octets 1 fun _ => true] m with
      | .truncated => some .indexError
      | _ => none := by
  have hf : ∀ m, errorOf (featureDecode m) = match front [.octets 1 (fun n => n = 3 || n = 5), .octets 1 fun _ => true] m with
      | .truncated => some .indexError
      | _ => none := by
    intro m
    rw [front_octet]
    rcases m with _ | ⟨b, m⟩
    · rfl
    simp only [featureDecode, octect, front_octet]
    by_cases h3 : b.toNat = 3
    · rw [if_pos h3, if_pos (by simp [h3])]
      cases m with
      | nil => rfl
      | cons c m =>
        simp only [front]
        split_ifs <;> rfl
    rw [if_neg h3]
    by_cases h5 : b.toNat = 5
    · rw [if_pos h5, if_pos (by simp [h5])]
      cases m with
      | nil => rfl
      | cons c m =>
        simp only [front]
        split_ifs <;> rfl
    rw [if_neg h5, if_neg (by simp [h3, h5])]
    rfl
  have hb : ∀ m r, errorOf (serviceBranch m r) = match front [.octets 2 (· = 0),
      .octets 1 (fun n => n = 3 || n = 5), .octets 1 fun _ => true] m with
      | .truncated => some .indexError
      | _ => none := by
    intro m r
    rw [front_short]
    unfold serviceBranch
    rcases hs : short m with e | ⟨n, b⟩
    · rw [short_index hs]; rfl
    simp only
    by_cases h0 : n = 0
    · rw [if_pos h0, if_pos (by simpa using h0), ← hf]
      cases featureDecode b <;> rfl
    · rw [if_neg h0, if_neg (by simpa using h0)]
      rfl
  rw [front_octet]
  rcases m with _ | ⟨b, m⟩
  · rfl
  simp only [serviceDecode, octect]
  by_cases h4 : b.toNat = 4
  · rw [if_pos h4, if_pos (by simp [h4]), ← hb m []]
    rcases hx : serviceBranch m [] with e | ⟨n, r⟩
    · rfl
    simp only
    split_ifs with h2
    · have := hb m r
      rw [← hb m [], hx] at this
      revert this
      cases serviceBranch m r <;> simp [errorOf]
    · rfl
  rw [if_neg h4]
  simp only
  by_cases h2 : b.toNat = 2
  · rw [if_pos h2, if_pos (by simp [h2]), ← hb m []]
    cases serviceBranch m [] <;> rfl
  · rw [if_neg h2, if_neg (by simp [h2, h4])]
    rfl

theorem front_append_truncated (a b : List Field) (m : Msg) :
    front (a ++ b) m = match front a m with | .rest m => front b m | .truncated => .truncated | .other => .other := by
  induction a generalizing m with
  | nil => rfl
  | cons f a ih =>
    cases f with
    | octets w good =>
      simp only [List.cons_append, front]
      split_ifs
      · rfl
      · exact ih _
      · rfl
    | limit w more =>
      simp only [List.cons_append, front]
      split_ifs
      · rfl
      · exact ih _

theorem protocol_complaint {s : State} {routes : BitVec 16 → List Int} (hr : Routing s routes) (m : Msg) :
    errorOf (protocolIdDecode m s).1 =
      match front [.octets 1 (· = 1), .octets 1 (· = 3), .octets 2 (· = 0)] m with
      | .truncated => some .indexError
      | .rest m => frameComplaint s routes m
      | .other =>
        match front [.octets 1 (· = 15), .octets 1 (fun n => n = 2 || n = 4), .octets 2 (· = 0),
          .octets 1 (fun n => n = 3 || n = 5), .octets 1 fun _ => true] m with
        | .truncated => some .indexError
        | _ => none := by
  rw [front_octet, front_octet]
  rcases m with _ | ⟨b, m⟩
  · rfl
  simp only [protocolIdDecode, octect]
  by_cases h1 : b.toNat = 1
  · simp only [h1, decide_true, if_true]
    unfold emiIdDecode
    rw [front_octet]
    rcases m with _ | ⟨c, m⟩
    · rfl
    simp only [octect]
    by_cases h3 : c.toNat = 3
    · simp only [h3, decide_true, if_true]
      rw [front_short]
      rcases hs : short m with e | ⟨n, m⟩
      · rw [short_index hs]; rfl
      simp only
      by_cases h0 : n = 0
      · simp only [h0, decide_true, if_true, front]
        exact frame_complaint hr m
      · simp only [h0, decide_false, if_false, Bool.false_eq_true]
        rfl
    · simp only [h3, decide_false, if_false, Bool.false_eq_true]
      rfl
  · simp only [h1, decide_false, if_false, Bool.false_eq_true]
    by_cases hf : b.toNat = 15
    · simp only [hf, decide_true, if_true]
      rw [← feature_complaint]
      cases serviceDecode m <;> rfl
    · simp only [hf, decide_false, if_false, Bool.false_eq_true]
      rfl

theorem report_complaint {s : State} {routes : BitVec 16 → List Int} (hr : Routing s routes) (m : Msg) :
    errorOf (reportIdDecode m s).1 = reportComplaint s routes m := by
  have key : errorOf (reportIdDecode m s).1 = match front reportFields m with
      | .truncated => some .indexError
      | .other => none
      | .rest m => errorOf (protocolIdDecode m s).1 := by
    unfold reportFields
    rw [front_octet]
    rcases m with _ | ⟨b1, m⟩
    · rfl
    simp only [reportIdDecode, octect]
    by_cases h1 : b1.toNat = 1
    swap
    · simp only [h1, decide_false, if_false, Bool.false_eq_true]; rfl
    simp only [h1, decide_true, if_true]
    rw [front_octet]
    rcases m with _ | ⟨b2, m⟩
    · rfl
    simp only [packetInfoDecode, octect]
    have e2 : getB 0 4 b2 = b2.toNat % 16 := by simp [getB, getField]
    rw [e2]
    by_cases h2 : b2.toNat % 16 = 3
    swap
    · simp only [h2, decide_false, if_false, Bool.false_eq_true]; rfl
    simp only [h2, decide_true, if_true]
    rw [front_limit]
    rcases m with _ | ⟨b3, m⟩
    · rfl
    simp only [Nat.add_zero]
    generalize m.take b3.toNat = m
    rw [front_octet]
    rcases m with _ | ⟨b4, m⟩
    · rfl
    simp only [protocolVersionDecode, octect]
    by_cases h4 : b4.toNat = 0
    swap
    · simp only [h4, decide_false, if_false, Bool.false_eq_true]; rfl
    simp only [h4, decide_true, if_true]
    rw [front_octet]
    rcases m with _ | ⟨b5, m⟩
    · rfl
    simp only [headerLengthDecode, octect]
    by_cases h5 : b5.toNat = 8
    swap
    · simp only [h5, decide_false, if_false, Bool.false_eq_true]; rfl
    simp only [h5, decide_true, if_true]
    rw [front_limit2]
    unfold bodyLengthDecode
    rcases hs : short m with e | ⟨n, m⟩
    · rw [short_index hs]; rfl
    rfl
  rw [key]
  unfold reportComplaint frameFields featureFields
  rw [front_append_truncated, front_append_truncated]
  cases front reportFields m with
  | truncated => rfl
  | other => rfl
  | rest m => exact protocol_complaint hr m

/-! ## Datagrams -/

theorem datagramComplaint_unknown {s : State} {routes : BitVec 16 → List Int} {h v a b : Byte} {m : Msg}
    (hn : ¬ (h = 0x06 ∧ v = 0x10 ∧ (a, b) ∈ ipServices)) : datagramComplaint s routes (h :: v :: a :: b :: m) = none :=
  if_neg hn

theorem datagramComplaint_known {s : State} {routes : BitVec 16 → List Int} {a b l1 l2 : Byte} {m : Msg}
    (hs : (a, b) ∈ ipServices) :
    datagramComplaint s routes (0x06 :: 0x10 :: a :: b :: l1 :: l2 :: m) = bodyComplaint s routes (a, b) m :=
  if_pos ⟨rfl, rfl, hs⟩

theorem datagram_complaint {s : State} {routes : BitVec 16 → List Int} (hm : s.medium = .knxnetIp) (hr : Routing s routes)
    (m : Msg) : errorOf (decodeMsg m s).1 = datagramComplaint s routes m := by
  rcases m with _ | ⟨h, _ | ⟨v, _ | ⟨a, _ | ⟨b, m⟩⟩⟩⟩
  iterate 4
    · rw [decode_ip hm]; rfl
  by_cases hh : h = 0x06 ∧ v = 0x10
  swap
  · rw [decode_ip hm, ip_dispatch, if_neg hh]
    rw [datagramComplaint_unknown fun h => hh ⟨h.1, h.2.1⟩]
    rfl
  obtain ⟨rfl, rfl⟩ := hh
  have hans : ∀ r : Except Err (List OutMsg), errorOf (answer r) = errorOf r := by
    intro r; cases r <;> rfl
  by_cases hs : (a, b) ∈ ipServices
  swap
  · rw [decode_ip hm, ip_dispatch, if_pos ⟨rfl, rfl⟩]
    rw [datagramComplaint_unknown fun h => hs h.2.2]
    simp only [ipServices, List.mem_cons, Prod.mk.injEq, List.not_mem_nil, or_false, not_or] at hs
    obtain ⟨s1, s2, s3, s4, s5, s6⟩ := hs
    rw [if_neg s1, if_neg s4, if_neg s2, if_neg s3, if_neg s5, if_neg s6]
    rfl
  rcases m with _ | ⟨l1, _ | ⟨l2, body⟩⟩
  · simp only [ipServices, List.mem_cons, Prod.mk.injEq, List.not_mem_nil, or_false] at hs
    rcases hs with ⟨rfl, rfl⟩ | ⟨rfl, rfl⟩ | ⟨rfl, rfl⟩ | ⟨rfl, rfl⟩ | ⟨rfl, rfl⟩ | ⟨rfl, rfl⟩ <;>
      (rw [decode_ip hm]; rfl)
  · simp only [ipServices, List.mem_cons, Prod.mk.injEq, List.not_mem_nil, or_false] at hs
    rcases hs with ⟨rfl, rfl⟩ | ⟨rfl, rfl⟩ | ⟨rfl, rfl⟩ | ⟨rfl, rfl⟩ | ⟨rfl, rfl⟩ | ⟨rfl, rfl⟩ <;>
      (rw [decode_ip hm]; rfl)
  rw [datagramComplaint_known hs]
  simp only [ipServices, List.mem_cons, Prod.mk.injEq, List.not_mem_nil, or_false] at hs
  rcases hs with ⟨rfl, rfl⟩ | ⟨rfl, rfl⟩ | ⟨rfl, rfl⟩ | ⟨rfl, rfl⟩ | ⟨rfl, rfl⟩ | ⟨rfl, rfl⟩
  · exact (congrArg (fun r => errorOf r.1) (c60_search l1 l2 body hm)).trans (hans _)
  · exact (congrArg (fun r => errorOf r.1) (c60_connect l1 l2 body hm)).trans (hans _)
  · exact (congrArg (fun r => errorOf r.1) (c60_state l1 l2 body hm)).trans (hans _)
  · exact (congrArg (fun r => errorOf r.1) (c60_disconnect l1 l2 body hm)).trans (hans _)
  · rw [decode_ip hm, ip_dispatch, if_pos (by decide), if_neg (by decide), if_neg (by decide), if_neg (by decide),
      if_neg (by decide), if_pos (by decide)]
    simp only [bodyComplaint]
    rw [if_neg (by decide), if_neg (by decide), if_neg (by decide), if_neg (by decide), if_pos (by decide)]
    rcases body with _ | ⟨b1, _ | ⟨b2, _ | ⟨seq, _ | ⟨b4, m⟩⟩⟩⟩
    iterate 4 exact rfl
    simp only [tunnelingReqDecode, short, connHeader, octect]
    by_cases hq : s.seqRemote = seq.toNat
    · rw [if_pos hq, if_pos hq.symm, ← frame_complaint hr]
      rcases msgCodeDecode m s with ⟨_ | _, _⟩ <;> rfl
    · rw [if_neg hq, if_neg (Ne.symm hq)]
      split_ifs <;> rfl
  · rw [decode_ip hm, ip_dispatch, if_pos (by decide), if_neg (by decide), if_neg (by decide), if_neg (by decide),
      if_neg (by decide), if_neg (by decide), if_pos (by decide)]
    simp only [bodyComplaint]
    rw [if_neg (by decide), if_neg (by decide), if_neg (by decide), if_neg (by decide), if_neg (by decide)]
    rcases body with _ | ⟨b1, _ | ⟨b2, _ | ⟨seq, _ | ⟨st, m⟩⟩⟩⟩
    iterate 4 exact rfl
    simp only [tunnelingAckDecode, short, connHeader, octect]
    have hst : errorOf (errorCode st.toNat) = if st.toNat < 4 then none else some .valueError := by
      generalize st.toNat = n
      rcases n with _ | _ | _ | _ | n
      iterate 4 exact rfl
      rw [if_neg (by omega)]
      rfl
    rw [← hst]
    cases errorCode st.toNat <;> rfl

/-! ## C113 -/

/-- C113: which exception decoding raises, for every sequence of octets and every state: the one that the specification
derives from the octets, the tables that are present, the registered addresses and the ASAPs listed for them; and none if it
finds nothing wrong. -/
theorem c113_decode {s : State} {routes : BitVec 16 → List Int} (hr : Routing s routes) (m : Msg) (e : Err) :
    (decodeMsg m s).1 = .error e ↔ decodeComplaint s routes m = some e := by
  have key : errorOf (decodeMsg m s).1 = decodeComplaint s routes m := by
    unfold decodeComplaint
    cases hm : s.medium with
    | usbHid =>
      simp only
      rw [← report_complaint hr]
      unfold decodeMsg
      rw [hm]
    | knxnetIp => exact datagram_complaint hm hr m
    | tp =>
      unfold decodeMsg
      rw [hm]
      rfl
  rw [← key]
  cases (decodeMsg m s).1 <;> simp [errorOf]

/-- C113 for a device: after any history of successful calls the ASAPs listed are those that the history associates. -/
theorem c113_device {at_ : AddressTable} {ops : List AssocTable.Op} (hops : ∀ op ∈ ops, op.Proper at_.ind)
    (h : AssocTable.AllOk (AssocTable.init at_ []).2 ops) {s : State}
    (hs : s.assoc = some ((AssocTable.init at_ []).2.afterAll ops)) (m : Msg) (e : Err) :
    (decodeMsg m s).1 = .error e ↔
      decodeComplaint s (fun x => routed (follow (fresh at_.ind.fs) ops) x) m = some e := by
  apply c113_decode
  intro a ha x hx
  rw [hs] at ha
  cases ha
  apply c08_partial at_ ops hops h ⟨0, x⟩
  obtain ⟨n, hn⟩ := getTsap_group (a := (AssocTable.init at_ []).2.afterAll ops) hx
  intro h0
  have : (some (n + 1) : Option Nat) = none := hn.symm.trans h0
  cases this

/-- A telegram without association table: `AttributeError`. -/
example : (decodeMsg (usbReport (cemi 0x29 [] exTelegram)) (State.init .usbHid none none)).1 = .error .attributeError :=
  (c113_decode (routes := fun _ => []) (fun a h => by cases h) _ _).2 (by decide +kernel)

/-- A report that ends before its end. -/
example : (decodeMsg [0x01, 0x13, 0x0A, 0x00, 0x08, 0x00] (exState .usbHid)).1 = .error .indexError :=
  (c113_device (at_ := exAt) (ops := exOps) (by decide) (by decide) rfl _ _).2 (by decide +kernel)

/-- A report about the device without the value it announces. -/
example : (decodeMsg [0x01, 0x13, 0x0A, 0x00, 0x08, 0x00, 0x01, 0x0F, 0x02, 0x00, 0x00, 0x05] (exState .usbHid)).1 =
    .error .indexError :=
  (c113_device (at_ := exAt) (ops := exOps) (by decide) (by decide) rfl _ _).2 (by decide +kernel)

/-- An acknowledgement with status 4, and one with status 1. -/
example : (decodeMsg [0x06, 0x10, 0x04, 0x21, 0, 10, 4, 7, 0, 4] (exState .knxnetIp)).1 = .error .valueError ∧
    ∀ e, (decodeMsg [0x06, 0x10, 0x04, 0x21, 0, 10, 4, 7, 0, 1] (exState .knxnetIp)).1 ≠ .error e :=
  ⟨(c113_device (at_ := exAt) (ops := exOps) (by decide) (by decide) rfl _ _).2 (by decide +kernel), fun e h =>
    nomatch ((c113_device (at_ := exAt) (ops := exOps) (by decide) (by decide) rfl _ _).1 h).symm.trans
      (show _ = none by decide +kernel)⟩

end Knx
