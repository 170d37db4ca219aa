import Verif.Spec.Relabel

/-! # Which numbers and names the ASAPs have -/

namespace Knx
open Spec

section Relabel
variable {f : Asap → Asap}

/-- Equality of ASAPs survives. -/
theorem relabel_eq (hf : Faithful f) (a b : Asap) : Asap.eq (f a) (f b) = Asap.eq a b := by
  unfold Asap.eq
  rw [Bool.eq_iff_iff, beq_iff_eq, beq_iff_eq]
  exact hf a b

theorem dictGet_relabel {ν : Type} (hf : Faithful f) (d : List (Asap × ν)) (a : Asap) :
    dictGet Asap.eq (d.map fun p => (f p.1, p.2)) (f a) = dictGet Asap.eq d a := by
  induction d with
  | nil => rfl
  | cons p d ih => simp only [List.map_cons, dictGet, relabel_eq hf, ih]

theorem dictSet_relabel {ν : Type} (hf : Faithful f) (d : List (Asap × ν)) (a : Asap) (v : ν) :
    dictSet Asap.eq (d.map fun p => (f p.1, p.2)) (f a) v = (dictSet Asap.eq d a v).map fun p => (f p.1, p.2) := by
  induction d with
  | nil => rfl
  | cons p d ih =>
    simp only [List.map_cons, dictSet, relabel_eq hf, ih]
    split <;> rfl

theorem dictDel_relabel {ν : Type} (hf : Faithful f) (d : List (Asap × ν)) (a : Asap) :
    dictDel Asap.eq (d.map fun p => (f p.1, p.2)) (f a) = (dictDel Asap.eq d a).map fun p => (f p.1, p.2) := by
  induction d with
  | nil => rfl
  | cons p d ih =>
    simp only [List.map_cons, dictDel, relabel_eq hf, ih]
    split <;> rfl

theorem dictGet_values {κ ν μ : Type} (eq : κ → κ → Bool) (g : ν → μ) (d : List (κ × ν)) (k : κ) :
    dictGet eq (d.map fun p => (p.1, g p.2)) k = (dictGet eq d k).map g := by
  induction d with
  | nil => rfl
  | cons p d ih =>
    simp only [List.map_cons, dictGet, ih]
    split <;> rfl

theorem dictSet_values {κ ν μ : Type} (eq : κ → κ → Bool) (g : ν → μ) (d : List (κ × ν)) (k : κ) (v : ν) :
    dictSet eq (d.map fun p => (p.1, g p.2)) k (g v) = (dictSet eq d k v).map fun p => (p.1, g p.2) := by
  induction d with
  | nil => rfl
  | cons p d ih =>
    simp only [List.map_cons, dictSet, ih]
    split <;> rfl

theorem rebuildStep_relabel (at_ : AddressTable) (asap : Asap) (d : List (Option Nat × List Asap)) (a : Addr) :
    AssocTable.rebuildStep at_ (f asap) (d.map fun p => (p.1, p.2.map f)) a =
      (AssocTable.rebuildStep at_ asap d a).map fun p => (p.1, p.2.map f) := by
  unfold AssocTable.rebuildStep
  simp only [dictGet_values (· == ·) (List.map f)]
  cases h : dictGet (· == ·) d (at_.getTsap a) with
  | none => exact dictSet_values (· == ·) (List.map f) d _ [asap]
  | some l =>
    simp only [Option.map_some]
    rw [← dictSet_values (· == ·) (List.map f)]
    simp

theorem rebuildSteps_relabel (at_ : AddressTable) (asap : Asap) (l : List Addr) :
    ∀ d : List (Option Nat × List Asap),
      l.foldl (AssocTable.rebuildStep at_ (f asap)) (d.map fun p => (p.1, p.2.map f)) =
        (l.foldl (AssocTable.rebuildStep at_ asap) d).map fun p => (p.1, p.2.map f) := by
  induction l with
  | nil => intro d; rfl
  | cons a l ih => intro d; simp only [List.foldl_cons, rebuildStep_relabel, ih]

theorem rebuild_relabel (t : AssocTable) : (relabelTable f t).rebuild = relabelTable f t.rebuild := by
  have key : ∀ (as : List (Asap × List Addr)) (d : List (Option Nat × List Asap)),
      (as.map fun p => (f p.1, p.2)).foldl (fun d p => p.2.foldl (AssocTable.rebuildStep t.at_ p.1) d)
          (d.map fun p => (p.1, p.2.map f)) =
        (as.foldl (fun d p => p.2.foldl (AssocTable.rebuildStep t.at_ p.1) d) d).map fun p => (p.1, p.2.map f) := by
    intro as
    induction as with
    | nil => intro d; rfl
    | cons p as ih => intro d; simp only [List.map_cons, List.foldl_cons, rebuildSteps_relabel, ih]
  have h := key t.asapAddrs []
  simp only [List.map_nil] at h
  unfold AssocTable.rebuild relabelTable
  simp only [h]

/-- Running on the relabelled object is relabelling what running gives. -/
def Parallels {σ α : Type} (r : σ → σ) (x y : Py σ α) : Prop := ∀ s, y (r s) = ((x s).1, r (x s).2)

theorem Parallels.bind {σ α β : Type} {r : σ → σ} {x y : Py σ α} {k l : α → Py σ β} (h : Parallels r x y)
    (hk : ∀ a, Parallels r (k a) (l a)) : Parallels r (Py.bind x k) (Py.bind y l) := by
  intro s
  simp only [Py.bind, h s]
  cases hx : x s with
  | mk o s' =>
    cases o with
    | error e => rfl
    | ok a => exact hk a s'

theorem Parallels.forEach {σ α : Type} {r : σ → σ} {x y : α → Py σ Unit} (h : ∀ a, Parallels r (x a) (y a)) (l : List α) :
    Parallels r (Py.forEach l x) (Py.forEach l y) := by
  induction l with
  | nil => intro s; rfl
  | cons a l ih => exact Parallels.bind (h a) fun _ => ih

theorem onAddressTable_relabel {α : Type} (x : Py AddressTable α) :
    Parallels (relabelTable f) (AssocTable.onAddressTable x) (AssocTable.onAddressTable x) := by
  intro t
  rfl

theorem associateAdd_relabel (a : Addr) :
    Parallels (relabelTable f) (AssocTable.associateAdd a) (AssocTable.associateAdd a) := by
  intro t
  unfold AssocTable.associateAdd
  simp only [show (relabelTable f t).at_ = t.at_ from rfl, show (relabelTable f t).ind = t.ind from rfl]
  split
  · exact onAddressTable_relabel _ t
  · rfl

theorem associateAppend_relabel (hf : Faithful f) (a : Asap) (l : List Addr) (t : AssocTable) :
    AssocTable.associateAppend (f a) l (relabelTable f t) = relabelTable f (AssocTable.associateAppend a l t) := by
  unfold AssocTable.associateAppend relabelTable
  simp only [dictGet_relabel hf, dictSet_relabel hf]

theorem associate_relabel (hf : Faithful f) (a : Asap) (l : List Addr) :
    Parallels (relabelTable f) (AssocTable.associate a l) (AssocTable.associate (f a) l) := by
  refine Parallels.bind (Parallels.forEach associateAdd_relabel l) fun _ t => ?_
  simp only [Py.modify, associateAppend_relabel hf, rebuild_relabel]

theorem disassociateOne_relabel (hf : Faithful f) (a : Asap) (x : Addr) :
    Parallels (relabelTable f) (AssocTable.disassociateOne a x) (AssocTable.disassociateOne (f a) x) := by
  refine Parallels.bind ?_ fun _ t => ?_
  · intro t
    simp only [show (relabelTable f t).ind = t.ind from rfl]
    split
    · exact onAddressTable_relabel _ t
    · rfl
  · have hg : dictGet Asap.eq (relabelTable f t).asapAddrs (f a) = dictGet Asap.eq t.asapAddrs a :=
      dictGet_relabel hf _ _
    simp only [hg]
    cases h : dictGet Asap.eq t.asapAddrs a with
    | none => rfl
    | some l =>
      simp only []
      cases h2 : AddressTable.removeFirst l x with
      | none => rfl
      | some l' =>
        simp only [relabelTable, dictSet_relabel hf]

theorem disassociate_relabel (hf : Faithful f) (a : Asap) (l : List Addr) :
    Parallels (relabelTable f) (AssocTable.disassociate a l) (AssocTable.disassociate (f a) l) := by
  refine Parallels.bind (Parallels.forEach (disassociateOne_relabel hf a) l) fun _ t => ?_
  simp only [Py.modify, rebuild_relabel]

theorem getTsaps_relabel (hf : Faithful f) (s : State) : (relabelState f s).getTsaps = s.getTsaps := by
  unfold State.getTsaps
  simp only [relabelState]
  cases s.assoc with
  | none => rfl
  | some t =>
    cases s.asap with
    | none => rfl
    | some a =>
      simp only [Option.map_some, AssocTable.getTsaps, relabelTable, dictGet_relabel hf]

theorem getAddressesTable_relabel (t : AssocTable) (l : List (Option Nat)) :
    (relabelTable f t).getAddresses l = t.getAddresses l := by
  induction l with
  | nil => rfl
  | cons x l ih =>
    cases x with
    | none => rfl
    | some n =>
      simp only [AssocTable.getAddresses, ih]
      rfl

theorem getAddresses_relabel (hf : Faithful f) (s : State) : (relabelState f s).getAddresses = s.getAddresses := by
  unfold State.getAddresses
  simp only [getTsaps_relabel hf]
  cases s.getTsaps with
  | error e => rfl
  | ok ts =>
    simp only [relabelState]
    cases s.assoc with
    | none => rfl
    | some t => exact getAddressesTable_relabel t ts

theorem getDpt_relabel (hf : Faithful f) (s : State) : (relabelState f s).getDpt = s.getDpt := by
  unfold State.getDpt
  simp only [relabelState]
  cases s.got with
  | none => rfl
  | some g =>
    cases s.asap with
    | none => rfl
    | some a => simp only [Option.map_some, GroupObjectTable.lookup, relabelObjects, dictGet_relabel hf]

theorem individual_relabel (s : State) :
    (relabelState f s).tables.individualAddress = s.tables.individualAddress := by
  unfold Tables.individualAddress State.tables
  simp only [relabelState]
  cases s.assoc <;> rfl

theorem linkEncode_relabel (k : EncKind) (s : State) (m : Msg) : linkEncode k (relabelState f s) m = linkEncode k s m :=
  rfl

theorem tDataGroup_relabel (hf : Faithful f) (k : EncKind) (s : State) (m : Msg) :
    tDataGroupEncode k (relabelState f s) m = tDataGroupEncode k s m := by
  unfold tDataGroupEncode nDataGroupEncode
  simp only [getTsaps_relabel hf, getAddresses_relabel hf, linkEncode_relabel]
  rfl

theorem tDataIndividual_relabel (s : State) (m : Msg) :
    tDataIndividualEncode (relabelState f s) m = tDataIndividualEncode s m := by
  unfold tDataIndividualEncode nDataIndividualEncode
  simp only [individual_relabel, linkEncode_relabel]
  rfl

/-- Encoding does not depend on which numbers and names the ASAPs have. -/
theorem encode_relabel (hf : Faithful f) (m : InMsg) (s : State) :
    encodeMsg (relabelRequest f m) (relabelState f s) = ((encodeMsg m s).1, relabelState f (encodeMsg m s).2) := by
  cases m with
  | connectReq => rfl
  | disconnectReq => rfl
  | connectionstateReq => rfl
  | searchReq => rfl
  | tunnelingAck seq status =>
    simp only [relabelRequest, encodeMsg, tunnelingAckEncode]
    have hc : connectionHeader (relabelState f s) status.toNat (relabelState f s).seqRemote =
        connectionHeader s status.toNat s.seqRemote := rfl
    simp only [hc]
    cases connectionHeader s status.toNat s.seqRemote with
    | error e => rfl
    | ok h =>
      simp only [show (relabelState f s).seqRemote = s.seqRemote from rfl]
      split <;> rfl
  | groupRead a =>
    simp only [relabelRequest, encodeMsg, groupReadEncode]
    exact Prod.ext (tDataGroup_relabel hf .req { s with apci := some 0, asap := some a, addressType := some .group } _) rfl
  | groupWriteReq a d =>
    simp only [relabelRequest, encodeMsg, groupWriteEncode]
    have h := getDpt_relabel hf { s with asap := some a, apci := some 0x80, addressType := some .group }
    have ht := tDataGroup_relabel hf .req { s with asap := some a, apci := some 0x80, addressType := some .group }
    simp only [relabelState, Option.map_some] at h ht ⊢
    simp only [h, ht]
    cases State.getDpt { s with asap := some a, apci := some 0x80, addressType := some .group } <;> rfl
  | groupWriteInd a d =>
    simp only [relabelRequest, encodeMsg, groupWriteEncode]
    have h := getDpt_relabel hf { s with asap := some a, apci := some 0x80, addressType := some .group }
    have ht := tDataGroup_relabel hf .ind { s with asap := some a, apci := some 0x80, addressType := some .group }
    simp only [relabelState, Option.map_some] at h ht ⊢
    simp only [h, ht]
    cases State.getDpt { s with asap := some a, apci := some 0x80, addressType := some .group } <;> rfl
  | propertyRead a oi pid n si =>
    simp only [relabelRequest, encodeMsg, propertyReadEncode]
    exact Prod.ext (tDataIndividual_relabel
      { s with asap := some a, apci := some 0x3D5, addressType := some .individual } _) rfl
  | propertyWrite a oi pid n si data =>
    simp only [relabelRequest, encodeMsg, propertyWriteEncode]
    cases stringToOctets data with
    | error e => rfl
    | ok d =>
      exact Prod.ext (tDataIndividual_relabel
        { s with asap := some a, apci := some 0x3D7, addressType := some .individual } _) rfl

/-! ## Decoding -/

theorem getAsaps_relabel (s : State) (d : BitVec 16) :
    (relabelState f s).tables.getAsaps d = (s.tables.getAsaps d).map (List.map f) := by
  unfold Tables.getAsaps State.tables
  simp only [relabelState]
  cases s.assoc with
  | none => rfl
  | some t =>
    simp only [Option.map_some, AssocTable.getAsaps, AssocTable.getTsap, relabelTable,
      dictGet_values (· == ·) (List.map f)]
    cases dictGet (· == ·) t.tsapAsaps (t.at_.getTsap ⟨0, d⟩) <;> rfl

theorem getAsapsAndDpts_relabel (hf : Faithful f) (s : State) (d : BitVec 16) :
    (relabelState f s).tables.getAsapsAndDpts d =
      (s.tables.getAsapsAndDpts d).map (List.map fun p => (f p.1, p.2)) := by
  unfold Tables.getAsapsAndDpts
  simp only [getAsaps_relabel]
  cases s.tables.getAsaps d with
  | error e => rfl
  | ok as =>
    simp only [Except.map, State.tables, relabelState]
    cases s.got with
    | none => rfl
    | some g =>
      simp only [Option.map_some, relabelObjects, List.filter_map]
      congr 2
      apply List.filter_congr
      intro p _
      simp only [Function.comp_apply, List.any_map]
      exact congrArg as.any (funext fun a => relabel_eq hf a p.1)

theorem groupDataLoop_relabel (m : Msg) (l : List (Asap × DptClass)) :
    groupDataLoop m (l.map fun p => (f p.1, p.2)) =
      (groupDataLoop m l).map (List.map fun p => (f p.1, p.2)) := by
  induction l with
  | nil => rfl
  | cons p l ih =>
    simp only [List.map_cons, groupDataLoop, ih]
    cases beValue m with
    | error e => rfl
    | ok v => cases groupDataLoop m l <;> rfl

theorem groupService_relabel (hf : Faithful f) (svc : Svc) (k : Kind) (s : State) (l : LData) (m : Msg) :
    groupServiceDecode svc k (relabelState f s).tables l m =
      (groupServiceDecode svc k s.tables l m).map (List.map (relabelMessage f)) := by
  unfold groupServiceDecode groupValueDecode
  simp only [getAsapsAndDpts_relabel hf]
  cases s.tables.getAsapsAndDpts l.destination with
  | error e => rfl
  | ok as =>
    simp only [Except.map, groupDataLoop_relabel]
    cases groupDataLoop m as with
    | error e => rfl
    | ok gs => simp only [List.map_map]; rfl

theorem logFirst_relabel (l : List OutMsg) : logFirst (l.map (relabelMessage f)) = logFirst l := by
  cases l with
  | nil => rfl
  | cons m l => cases m <;> rfl

theorem getTsap_relabel (s : State) (d : BitVec 16) :
    (relabelState f s).tables.getTsap d = s.tables.getTsap d := by
  unfold Tables.getTsap State.tables
  simp only [relabelState]
  cases s.assoc <;> rfl

theorem tDataGroupDecode_relabel (hf : Faithful f) (k : Kind) (s : State) (l : LData) (m : Msg) :
    tDataGroupDecode k (relabelState f s).tables l m =
      (tDataGroupDecode k s.tables l m).map (List.map (relabelMessage f)) := by
  have key : ∀ r : Except Err (List OutMsg),
      (match r.map (List.map (relabelMessage f)) with
        | .error e => .error e
        | .ok result =>
          match logFirst result with
          | .error e => .error e
          | .ok _ => .ok result : Except Err (List OutMsg)) =
      (match r with
        | .error e => .error e
        | .ok result =>
          match logFirst result with
          | .error e => .error e
          | .ok _ => .ok result : Except Err (List OutMsg)).map (List.map (relabelMessage f)) := by
    intro r
    cases r with
    | error e => rfl
    | ok r =>
      simp only [Except.map, logFirst_relabel]
      cases logFirst r <;> rfl
  unfold tDataGroupDecode
  simp only [getTsap_relabel]
  cases s.tables.getTsap l.destination with
  | error e => rfl
  | ok o =>
    rcases o with _ | _ | n
    · rfl
    · rfl
    · simp only [groupService_relabel hf]
      by_cases h1 : l.apciFull = 0
      · simp only [if_pos h1]
        exact key _
      · by_cases h2 : (l.apciFull : Int) - l.data = 0x40
        · simp only [if_neg h1, if_pos h2]
          exact key _
        · by_cases h3 : (l.apciFull : Int) - l.data = 0x80
          · simp only [if_neg h1, if_neg h2, if_pos h3]
            exact key _
          · simp only [if_neg h1, if_neg h2, if_neg h3]
            rfl

theorem propertyDispatch_relabel (k : Kind) (l : LData) (m : Msg) :
    (propertyDispatch k l m).map (List.map (relabelMessage f)) = propertyDispatch k l m := by
  have key : ∀ svc, (propertyServiceDecode svc k l m).map (List.map (relabelMessage f)) =
      propertyServiceDecode svc k l m := by
    intro svc
    unfold propertyServiceDecode
    cases long m <;> rfl
  unfold propertyDispatch
  split
  · exact key _
  · split
    · exact key _
    · split
      · exact key _
      · rfl

theorem tDataIndividualDecode_relabel (k : Kind) (s : State) (l : LData) (m : Msg) :
    tDataIndividualDecode k (relabelState f s).tables l m =
      (tDataIndividualDecode k s.tables l m).map (List.map (relabelMessage f)) := by
  unfold tDataIndividualDecode
  simp only [getTsap_relabel, individual_relabel]
  cases k with
  | con =>
    cases s.tables.getTsap l.destination with
    | error e => rfl
    | ok o =>
      simp only []
      split
      · exact (propertyDispatch_relabel _ l m).symm
      · rfl
  | ind =>
    cases s.tables.individualAddress with
    | error e => rfl
    | ok o =>
      simp only []
      split
      · exact (propertyDispatch_relabel _ l m).symm
      · rfl

theorem lDataDecode_relabel (hf : Faithful f) (k : Kind) (s : State) (l : LData) (m : Msg) :
    lDataDecode k (relabelState f s).tables l m = (lDataDecode k s.tables l m).map (relabelResult f) := by
  unfold lDataDecode nDataIndividualDecode nDataGroupDecode
  simp only [tDataGroupDecode_relabel hf, tDataIndividualDecode_relabel]
  cases l.addressType with
  | individual =>
    simp only []
    split
    · cases tDataIndividualDecode k s.tables l m <;> rfl
    · rfl
  | group =>
    simp only []
    split
    · split
      · cases tDataGroupDecode k s.tables l m <;> rfl
      · rfl
    · rfl

/-- Decoding the same octets on the relabelled state gives the relabelled messages. -/
def Decodes (f : Asap → Asap) (x : Py State Res) : Prop :=
  ∀ s, x (relabelState f s) = ((x s).1.map (relabelResult f), relabelState f (x s).2)

theorem Decodes.raise (e : Err) : Decodes f (Py.raise e) := fun _ => rfl

theorem Decodes.empty : Decodes f (Py.pure (.list [])) := fun _ => rfl

theorem cemi_decodes (hf : Faithful f) (k : Kind) (m : Msg) : Decodes f (cemiLdataDecode k m) := by
  intro s
  unfold cemiLdataDecode
  cases LData.makeFrom m with
  | error e => rfl
  | ok p => exact Prod.ext (lDataDecode_relabel hf k s p.1 p.2) rfl

theorem msgCode_decodes (hf : Faithful f) (m : Msg) : Decodes f (msgCodeDecode m) := by
  unfold msgCodeDecode
  cases octect m with
  | error e => exact .raise e
  | ok p =>
    simp only []
    cases octect p.2 with
    | error e => exact .raise e
    | ok q =>
      simp only []
      split
      · exact cemi_decodes hf _ _
      · split
        · exact cemi_decodes hf _ _
        · exact .empty

theorem feature_plain (m : Msg) (l : List OutMsg) (h : featureDecode m = .ok l) : l.map (relabelMessage f) = l := by
  unfold featureDecode at h
  revert h
  cases octect m with
  | error e => intro h; cases h
  | ok p =>
    simp only []
    cases octect p.2 with
    | error e =>
      simp only []
      repeat' split
      all_goals (intro h; cases h)
      rfl
    | ok q =>
      simp only []
      repeat' split
      all_goals (intro h; cases h; rfl)

theorem branch_plain (m : Msg) (l : List OutMsg) (hl : l.map (relabelMessage f) = l) (n : Nat) (l' : List OutMsg)
    (h : serviceBranch m l = .ok (n, l')) : l'.map (relabelMessage f) = l' := by
  unfold serviceBranch at h
  cases h1 : short m with
  | error e => rw [h1] at h; cases h
  | ok p =>
    rw [h1] at h
    simp only [] at h
    split at h
    · cases h2 : featureDecode p.2 with
      | error e => rw [h2] at h; cases h
      | ok r => rw [h2] at h; cases h; exact feature_plain _ _ h2
    · cases h; exact hl

theorem service_plain (m : Msg) (l : List OutMsg) (h : serviceDecode m = .ok l) : l.map (relabelMessage f) = l := by
  unfold serviceDecode at h
  cases h1 : octect m with
  | error e => rw [h1] at h; cases h
  | ok p =>
    rw [h1] at h
    simp only [] at h
    cases h2 : (if p.1.toNat = 4 then serviceBranch p.2 [] else .ok (p.1.toNat, [])) with
    | error e => rw [h2] at h; cases h
    | ok q =>
      rw [h2] at h
      have hq : q.2.map (relabelMessage f) = q.2 := by
        split at h2
        · exact branch_plain _ [] rfl q.1 q.2 h2
        · cases h2; rfl
      simp only [] at h
      split at h
      · cases h3 : serviceBranch p.2 q.2 with
        | error e => rw [h3] at h; cases h
        | ok r => rw [h3] at h; cases h; exact branch_plain _ _ hq r.1 r.2 h3
      · cases h; exact hq

theorem report_decodes (hf : Faithful f) (m : Msg) : Decodes f (reportIdDecode m) := by
  have hemi : ∀ m, Decodes f (emiIdDecode m) := by
    intro m
    unfold emiIdDecode
    cases octect m with
    | error e => exact .raise e
    | ok p =>
      simp only []
      split
      · cases short p.2 with
        | error e => exact .raise e
        | ok q =>
          simp only []
          split
          · exact msgCode_decodes hf _
          · exact .empty
      · exact .empty
  have hpid : ∀ m, Decodes f (protocolIdDecode m) := by
    intro m
    unfold protocolIdDecode
    cases octect m with
    | error e => exact .raise e
    | ok p =>
      simp only []
      split
      · exact hemi _
      · split
        · cases h : serviceDecode p.2 with
          | error e => exact .raise e
          | ok r =>
            intro s
            simp only [Py.pure, Except.map, relabelResult, service_plain _ _ h]
        · exact .empty
  unfold reportIdDecode
  cases octect m with
  | error e => exact .raise e
  | ok p =>
    simp only []
    split
    · unfold packetInfoDecode
      cases octect p.2 with
      | error e => exact .raise e
      | ok q =>
        simp only []
        split
        · cases octect q.2 with
          | error e => exact .raise e
          | ok r =>
            simp only []
            unfold protocolVersionDecode
            cases octect (r.2.take r.1.toNat) with
            | error e => exact .raise e
            | ok u =>
              simp only []
              split
              · unfold headerLengthDecode
                cases octect u.2 with
                | error e => exact .raise e
                | ok v =>
                  simp only []
                  split
                  · unfold bodyLengthDecode
                    cases short v.2 with
                    | error e => exact .raise e
                    | ok w => exact hpid _
                  · exact .empty
              · exact .empty
        · exact .empty
    · exact .empty

theorem search_plain (m : Msg) (l : List OutMsg) (h : searchResDecode m = .ok l) : l.map (relabelMessage f) = l := by
  unfold searchResDecode at h
  repeat' (split at h)
  all_goals (cases h; try rfl)

theorem connectionstate_plain (m : Msg) (l : List OutMsg) (h : connectionstateResDecode m = .ok l) :
    l.map (relabelMessage f) = l := by
  unfold connectionstateResDecode at h
  repeat' (split at h)
  all_goals (cases h; try rfl)

theorem disconnect_decodes (m : Msg) : Decodes f (disconnectResDecode m) := by
  intro s
  unfold disconnectResDecode
  cases short m with
  | error e => rfl
  | ok p =>
    simp only []
    cases octect p.2 with
    | error e => rfl
    | ok q =>
      simp only []
      cases octect q.2 with
      | error e => rfl
      | ok r =>
        simp only []
        split <;> rfl

theorem connect_decodes (m : Msg) : Decodes f (connectResDecode m) := by
  intro s
  unfold connectResDecode
  cases short m with
  | error e => rfl
  | ok p =>
    simp only []
    cases octect p.2 with
    | error e => rfl
    | ok q =>
      simp only []
      cases octect q.2 with
      | error e => rfl
      | ok r =>
        simp only []
        cases hpai r.2 with
        | error e => rfl
        | ok u =>
          simp only []
          split
          · cases crd u.2.2 <;> rfl
          · cases connectStatus r.1.toNat <;> rfl

theorem tunneling_decodes (hf : Faithful f) (m : Msg) : Decodes f (tunnelingReqDecode m) := by
  intro s
  unfold tunnelingReqDecode
  cases short m with
  | error e => rfl
  | ok p =>
    simp only []
    cases connHeader p.2 with
    | error e => rfl
    | ok q =>
      simp only [show (relabelState f s).seqRemote = s.seqRemote from rfl]
      split
      · simp only [msgCode_decodes hf q.2.2.2 s]
        cases h : msgCodeDecode q.2.2.2 s with
        | mk r s' =>
          cases r with
          | error e => rfl
          | ok r => cases r <;> simp [Except.map, relabelResult, extend, relabelMessage]
      · split <;> rfl

theorem ack_decodes (m : Msg) : Decodes f (tunnelingAckDecode m) := by
  intro s
  unfold tunnelingAckDecode
  cases short m with
  | error e => rfl
  | ok p =>
    simp only []
    cases connHeader p.2 with
    | error e => rfl
    | ok q =>
      simp only [show (relabelState f s).seqLocal = s.seqLocal from rfl]
      by_cases h : s.seqLocal = q.2.1
      · simp only [if_pos h]
        cases errorCode q.2.2.1 <;> rfl
      · simp only [if_neg h]
        cases errorCode q.2.2.1 <;> rfl

theorem header_decodes (hf : Faithful f) (m : Msg) : Decodes f (ipHeaderDecode m) := by
  unfold ipHeaderDecode
  cases octect m with
  | error e => exact .raise e
  | ok p =>
    simp only []
    cases octect p.2 with
    | error e => exact .raise e
    | ok q =>
      simp only []
      cases short q.2 with
      | error e => exact .raise e
      | ok r =>
        simp only []
        split
        · split
          · cases h : searchResDecode r.2 with
            | error e => exact .raise e
            | ok l =>
              intro s
              simp only [Py.pure, Except.map, relabelResult, search_plain _ _ h]
          · split
            · exact disconnect_decodes _
            · split
              · exact connect_decodes _
              · split
                · cases h : connectionstateResDecode r.2 with
                  | error e => exact .raise e
                  | ok l =>
                    intro s
                    simp only [Py.pure, Except.map, relabelResult, connectionstate_plain _ _ h]
                · split
                  · exact tunneling_decodes hf _
                  · split
                    · exact ack_decodes _
                    · exact .empty
        · exact .empty

/-- Decoding depends on the numbers and names of the ASAPs only in the ASAPs of the group messages. -/
theorem decode_relabel (hf : Faithful f) (m : Msg) : Decodes f (decodeMsg m) := by
  intro s
  unfold decodeMsg
  simp only [show (relabelState f s).medium = s.medium from rfl]
  cases s.medium with
  | usbHid => exact report_decodes hf m s
  | knxnetIp => exact header_decodes hf m s
  | tp => rfl

/-! ## Histories -/

theorem doDeed_relabel (hf : Faithful f) (d : Deed) (s : State) :
    doDeed (relabelDeed f d) (relabelState f s) = (relabelEffect f (doDeed d s).1, relabelState f (doDeed d s).2) := by
  have htab : ∀ (op op' : AssocTable.Op), Parallels (relabelTable f) (AssocTable.perform op) (AssocTable.perform op') →
      doDeed (.table op') (relabelState f s) =
        (relabelEffect f (doDeed (.table op) s).1, relabelState f (doDeed (.table op) s).2) := by
    intro op op' h
    unfold doDeed
    simp only [show (relabelState f s).assoc = s.assoc.map (relabelTable f) from rfl]
    cases ha : s.assoc with
    | none => rfl
    | some t =>
      simp only [Option.map_some, h t]
      rfl
  have hobj : ∀ (op op' : GroupObjectTable.Op), Parallels (relabelObjects f) (objectCall op) (objectCall op') →
      doDeed (.object op') (relabelState f s) =
        (relabelEffect f (doDeed (.object op) s).1, relabelState f (doDeed (.object op) s).2) := by
    intro op op' h
    unfold doDeed
    simp only [show (relabelState f s).got = s.got.map (relabelObjects f) from rfl]
    cases ha : s.got with
    | none => rfl
    | some t =>
      simp only [Option.map_some, h t]
      rfl
  cases d with
  | table op =>
    cases op with
    | associate a l => exact htab _ _ (associate_relabel hf a l)
    | disassociate a l => exact htab _ _ (disassociate_relabel hf a l)
    | addAddress a => exact htab _ _ (onAddressTable_relabel (AddressTable.add a))
    | removeAddress a => exact htab _ _ (onAddressTable_relabel (AddressTable.remove a))
  | readdress ia =>
    simp only [relabelDeed, doDeed, show (relabelState f s).assoc = s.assoc.map (relabelTable f) from rfl]
    cases ha : s.assoc with
    | none => rfl
    | some t => rfl
  | object op =>
    cases op with
    | associate a c =>
      refine hobj _ _ fun g => ?_
      exact Prod.ext rfl (dictSet_relabel hf g a c)
    | disassociate a =>
      refine hobj _ _ fun g => ?_
      simp only [objectCall, GroupObjectTable.disassociate, relabelObjects, dictGet_relabel hf, dictDel_relabel hf]
      cases dictGet Asap.eq g a <;> rfl
  | encode m =>
    simp only [relabelDeed, doDeed, encode_relabel hf m s]
    rfl
  | decode m =>
    simp only [relabelDeed, doDeed, decode_relabel hf m s]
    cases (decodeMsg m s).1 <;> rfl
  | setRemote v => rfl
  | setLocal v => rfl

end Relabel

/-- **C96.** Give the ASAPs of an installation other numbers and names that tell apart exactly what the old numbers told
apart, in its tables and in all later calls: every history of calls sends the same octets, raises the same exceptions and
reports the same messages, but for the ASAPs of the group messages, which are the renumbered ones. -/
theorem c96_numbers (f : Asap → Asap) (hf : Faithful f) (s : State) (ds : List Deed) :
    effects (relabelState f s) (ds.map (relabelDeed f)) = (effects s ds).map (relabelEffect f) := by
  induction ds generalizing s with
  | nil => rfl
  | cons d ds ih =>
    simp only [List.map_cons, effects, doDeed_relabel hf, ih]

/-- Relabelling keeps the octets sent. -/
theorem octets_relabel (f : Asap → Asap) (es : List Effect) : octetsSent (es.map (relabelEffect f)) = octetsSent es := by
  induction es with
  | nil => rfl
  | cons e es ih =>
    rcases e with r | (e | m) | (e | r)
    · exact ih
    · exact ih
    · exact congrArg (m :: ·) ih
    · exact ih
    · exact ih

/-- **C96.** Names are decoration: two installations and two histories that differ in the names of ASAPs only have the
same effects but for the names in the messages, and send the same octets. -/
theorem c96_names (s s' : State) (ds ds' : List Deed) (hs : relabelState nameless s = relabelState nameless s')
    (hd : ds.map (relabelDeed nameless) = ds'.map (relabelDeed nameless)) :
    (effects s ds).map (relabelEffect nameless) = (effects s' ds').map (relabelEffect nameless) ∧
      octetsSent (effects s ds) = octetsSent (effects s' ds') := by
  have hf : Faithful nameless := fun _ _ => Iff.rfl
  have h : (effects s ds).map (relabelEffect nameless) = (effects s' ds').map (relabelEffect nameless) := by
    rw [← c96_numbers nameless hf, ← c96_numbers nameless hf, hs, hd]
  exact ⟨h, by rw [← octets_relabel nameless, h, octets_relabel]⟩

/-- **C96.** The tables can be built with the other numbers and names from the start, if ASAP 0, which the association
table gives to the individual address, keeps its number and name. -/
theorem c96_built (f : Asap → Asap) (hf : Faithful f)
    (h0 : f ⟨0, some "individual address"⟩ = ⟨0, some "individual address"⟩) (at_ : AddressTable)
    (l : List (Asap × Addr)) (g : List (Asap × DptClass)) :
    AssocTable.init at_ (l.map fun p => (f p.1, p.2)) =
        ((AssocTable.init at_ l).1, relabelTable f (AssocTable.init at_ l).2) ∧
      GroupObjectTable.init (g.map fun p => (f p.1, p.2)) = relabelObjects f (GroupObjectTable.init g) := by
  constructor
  · have hloop : ∀ l : List (Asap × Addr), Parallels (relabelTable f)
        (Py.forEach l fun p => AssocTable.associate p.1 [p.2])
        (Py.forEach (l.map fun p => (f p.1, p.2)) fun p => AssocTable.associate p.1 [p.2]) := by
      intro l
      induction l with
      | nil => intro t; rfl
      | cons p l ih => exact Parallels.bind (associate_relabel hf p.1 [p.2]) fun _ => ih
    have hfirst := associate_relabel hf ⟨0, some "individual address"⟩ [at_.ind]
    rw [h0] at hfirst
    exact Parallels.bind hfirst (fun _ => hloop l) { at_ := at_, asapAddrs := [], tsapAsaps := [] }
  · have key : ∀ (g : List (Asap × DptClass)) (d : GroupObjectTable),
        (g.map fun p => (f p.1, p.2)).foldl (fun d p => dictSet Asap.eq d p.1 p.2) (relabelObjects f d) =
          relabelObjects f (g.foldl (fun d p => dictSet Asap.eq d p.1 p.2) d) := by
      intro g
      induction g with
      | nil => intro d; rfl
      | cons p g ih =>
        intro d
        simp only [List.map_cons, List.foldl_cons]
        rw [show dictSet Asap.eq (relabelObjects f d) (f p.1) p.2 = relabelObjects f (dictSet Asap.eq d p.1 p.2)
          from dictSet_relabel hf d p.1 p.2]
        exact ih _
    exact key g []

/-! ## Examples -/

/-- Negated numbers and another name, ASAP 0 excepted. -/
def exNegated (a : Asap) : Asap := if a.value = 0 then a else ⟨-a.value, some "other"⟩

theorem exNegated_faithful : Faithful exNegated := by
  intro a b
  unfold exNegated
  split <;> split <;> constructor <;> intro h <;> simp_all

/-- An installation with two group objects, built from scratch. -/
def exHouse (f : Asap → Asap) : State :=
  .initIp .usbHid
    (some (AssocTable.init (AddressTable.init ⟨1, 0x1101⟩ [] 10)
      [(f ⟨1, some "lamp"⟩, ⟨2, 0x0901⟩), (f ⟨2, some "blind"⟩, ⟨3, 0x0902⟩)]).2)
    (some (GroupObjectTable.init [(f ⟨1, some "lamp"⟩, .switch), (f ⟨2, none⟩, .upDown)]))

/-- A report with a telegram that switches the lamp on. -/
def exSwitchOn : Msg :=
  [0x01, 0x13, 0x13, 0x00, 0x08, 0x00, 0x0b, 0x01, 0x03, 0x00, 0x00, 0x29, 0x00, 0x96, 0xe0, 0x00, 0x00, 0x09, 0x01,
    0x01, 0x00, 0x81]

/-- A new group object, a write, a telegram and a read of an unknown ASAP. -/
def exDeeds (f : Asap → Asap) : List Deed :=
  [.table (.associate (f ⟨3, some "porch"⟩) [⟨4, 0x0901⟩]), .object (.associate (f ⟨3, none⟩) .switch),
    .encode (.groupWriteReq (f ⟨1, some "lamp"⟩) ⟨.switch, 1⟩), .decode exSwitchOn, .encode (.groupRead (f ⟨7, none⟩))]

/-- Both associations of the telegram's address hear of it, in both numberings. -/
example : effects (exHouse id) (exDeeds id) =
    [.done (.ok ()), .done (.ok ()),
      .octets (.ok [0x01, 0x13, 0x13, 0x00, 0x08, 0x00, 0x0b, 0x01, 0x03, 0x00, 0x00, 0x11, 0x00, 0x96, 0xe0, 0x00,
        0x00, 0x09, 0x01, 0x01, 0x00, 0x81]),
      .received (.ok (.list [.group .write .ind ⟨1, some "lamp"⟩ ⟨.switch, 129⟩, .group .write .ind ⟨3, none⟩ ⟨.switch, 129⟩])),
      .octets (.error .keyError)] := by decide +kernel

example : effects (exHouse exNegated) (exDeeds exNegated) =
    [.done (.ok ()), .done (.ok ()),
      .octets (.ok [0x01, 0x13, 0x13, 0x00, 0x08, 0x00, 0x0b, 0x01, 0x03, 0x00, 0x00, 0x11, 0x00, 0x96, 0xe0, 0x00,
        0x00, 0x09, 0x01, 0x01, 0x00, 0x81]),
      .received (.ok (.list [.group .write .ind ⟨-1, some "other"⟩ ⟨.switch, 129⟩,
        .group .write .ind ⟨-3, some "other"⟩ ⟨.switch, 129⟩])),
      .octets (.error .keyError)] := by decide +kernel

example : effects (relabelState exNegated (exHouse id)) ((exDeeds id).map (relabelDeed exNegated)) =
    (effects (exHouse id) (exDeeds id)).map (relabelEffect exNegated) := c96_numbers _ exNegated_faithful _ _

/-- Naming no ASAP at all. -/
example : octetsSent (effects (exHouse id) (exDeeds id)) = octetsSent (effects (exHouse nameless) (exDeeds nameless)) :=
  (c96_names _ _ _ _ (by decide +kernel) (by decide +kernel)).2

example : exNegated ⟨0, some "individual address"⟩ = ⟨0, some "individual address"⟩ ∧
    exHouse exNegated = relabelState exNegated (exHouse id) := by
  refine ⟨rfl, ?_⟩
  have h := c96_built exNegated exNegated_faithful rfl (AddressTable.init ⟨1, 0x1101⟩ [] 10)
    [(⟨1, some "lamp"⟩, ⟨2, 0x0901⟩), (⟨2, some "blind"⟩, ⟨3, 0x0902⟩)]
    [(⟨1, some "lamp"⟩, .switch), (⟨2, none⟩, .upDown)]
  have h1 := congrArg Prod.snd h.1
  have h2 := h.2
  simp only [List.map_cons, List.map_nil] at h1 h2
  simp only [exHouse, State.initIp, relabelState, h1, h2, id, Option.map_some, Option.map_none]

/-- Numbers that no longer tell two ASAPs apart do change what is received: the hypothesis is needed. -/
example : effects (relabelState (fun _ => ⟨1, none⟩) (exHouse id)) [.encode (.groupWriteReq ⟨1, none⟩ ⟨.upDown, 1⟩)] ≠
    effects (exHouse id) [.encode (.groupWriteReq ⟨2, none⟩ ⟨.upDown, 1⟩)] := by decide +kernel

end Knx
