import Verif.Lemmas.Wire
import Verif.Lemmas.Tables
import Verif.Lemmas.Dict
import Verif.Props.AssocTables
import Verif.Props.GroupObjects
import Verif.Props.Datapoints

/-! # C29, C30: group telegrams -/

namespace Knx
open Spec

/-! ## Reading a telegram -/

theorem addressType_group {t : Telegram} (h : t.IsGroup) : (ldataOf t).addressType = .group := by
  unfold LData.addressType getB getField
  have := t.ctrl2.isLt
  unfold Telegram.IsGroup at h
  rw [if_neg]
  rw [show (ldataOf t).cntrl2 = t.ctrl2 from rfl]
  omega

theorem addressType_individual {t : Telegram} (h : ¬ t.IsGroup) : (ldataOf t).addressType = .individual := by
  unfold LData.addressType getB getField
  have := t.ctrl2.isLt
  unfold Telegram.IsGroup at h
  rw [if_pos]
  rw [show (ldataOf t).cntrl2 = t.ctrl2 from rfl]
  omega

theorem tpci_fields (b : Byte) : (getB 7 1 b = 0 ∧ getB 6 1 b = 0 ∧ getB 2 4 b = 0) ↔ b.toNat < 4 := by
  have := b.isLt
  unfold getB getField
  omega

theorem nsdu_group {t : Telegram} (hg : t.IsGroup) (hd : t.destination ≠ 0) :
    (ldataOf t).nsdu = some .group ↔ t.IsData := by
  have h := tpci_fields t.tpci
  unfold LData.nsdu Telegram.IsData
  have e1 : (ldataOf t).tpci = t.tpci := rfl
  have e2 : ¬ (ldataOf t).destination = 0 := hd
  simp only [addressType_group hg, e1, e2, reduceCtorEq, true_and, false_and, and_false, if_false, ne_eq,
    not_false_eq_true, and_true]
  rw [← h]
  constructor
  · intro e
    split_ifs at e <;> first | assumption | simp at e
  · intro e
    rw [if_pos e]

theorem nsdu_individual {t : Telegram} (hg : ¬ t.IsGroup) :
    (ldataOf t).nsdu = some .individual ↔ t.IsData := by
  have h := tpci_fields t.tpci
  unfold LData.nsdu Telegram.IsData
  have e1 : (ldataOf t).tpci = t.tpci := rfl
  simp only [addressType_individual hg, e1, reduceCtorEq, true_and, false_and, if_false]
  rw [← h]
  constructor
  · intro e
    split_ifs at e <;> first | assumption | simp at e
  · intro e
    rw [if_pos e]

theorem apciFull_ldataOf (t : Telegram) : (ldataOf t).apciFull = t.code := by
  unfold LData.apciFull getB getField Telegram.code ldataOf
  simp

theorem data_ldataOf (t : Telegram) : (ldataOf t).data = t.code % 64 := by
  unfold LData.data getB getField Telegram.code ldataOf
  simp only
  omega

theorem status_ldataOf (t : Telegram) : (ldataOf t).status = t.status := by
  unfold LData.status getB getField Telegram.status ldataOf
  simp

theorem conf_ldataOf (k : Kind) (t : Telegram) : k.conf (ldataOf t) = confOf k t := by
  cases k <;> simp [Kind.conf, confOf, status_ldataOf]

/-! ## Fan-out -/

/-- The payload the application layer sees. -/
def payload (t : Telegram) : Msg := if t.rest = [] then [t.apci] else t.rest

theorem payload_value (t : Telegram) : beValue (payload t) = .ok t.value := by
  unfold payload Telegram.value
  split_ifs with h
  · rw [beValue_eq (by simp)]
    simp [number]
  · rw [beValue_eq h]

theorem size_octets (c : DptClass) : c.size = octets c := by cases c <;> rfl

theorem setValue_eq (c : DptClass) (n : Nat) : (Dpt.new c).setValue n = ⟨c, n % 256 ^ octets c⟩ := by
  unfold Dpt.new Dpt.setValue
  simp only [trunc_ofNat, size_octets]
  rw [show (256 : Nat) = 2 ^ 8 from rfl, ← pow_mul]

theorem groupDataLoop_eq (t : Telegram) (l : List (Asap × DptClass)) :
    groupDataLoop (payload t) l = .ok (l.map fun p => (p.1, ⟨p.2, t.value % 256 ^ octets p.2⟩)) := by
  induction l with
  | nil => rfl
  | cons p l ih =>
    obtain ⟨a, c⟩ := p
    simp only [groupDataLoop, payload_value, ih, List.map_cons, setValue_eq]

/-- The only exception of a description is `ValueError`. -/
theorem describe_error {d : Dpt} {e : Err} (h : d.describe = .error e) : e = .valueError := by
  have key : ∀ (ps : List DptProp) (raw : Nat), Dpt.describeProps raw ps = .error e → e = .valueError := by
    intro ps raw
    induction ps with
    | nil => intro h; simp [Dpt.describeProps] at h
    | cons p ps ih =>
      intro h
      simp only [Dpt.describeProps] at h
      split at h
      · rename_i e' he
        simp only [Except.error.injEq] at h
        subst h
        unfold Dpt.getProp at he
        split at he
        · cases he
        · split at he
          · rename_i e'' hm
            simp only [Except.error.injEq] at he
            subst he
            unfold Dpt.memberName at hm
            split at hm
            · cases hm; rfl
            · cases hm
          · cases he
        · cases he
      · split at h
        · rename_i e' he
          simp only [Except.error.injEq] at h
          subst h
          exact ih he
        · cases h
  unfold Dpt.describe at h
  split at h
  · rename_i e' he
    simp only [Except.error.injEq] at h
    subst h
    exact key _ _ he
  · split at h <;> cases h

theorem repr_eq (d : Dpt) : d.repr = if Displayable d then .ok () else .error .valueError := by
  unfold Dpt.repr
  have hu := c16_undefined d
  cases hk : d.cls.kind with
  | bits =>
    simp only
    cases hd : d.describe with
    | error e =>
      have := describe_error hd
      subst this
      rw [if_neg]
      unfold Displayable
      rw [not_not]
      exact hu.1 hd
    | ok r =>
      rw [if_pos]
      unfold Displayable
      rw [← hu, hd]
      simp
  | float16 =>
    simp only
    rw [if_pos]
    unfold Displayable
    rintro ⟨h | h, -⟩ <;> rw [h] at hk <;> cases hk
  | float32 =>
    simp only
    rw [if_pos]
    unfold Displayable
    rintro ⟨h | h, -⟩ <;> rw [h] at hk <;> cases hk

theorem logFirst_eq (l : List OutMsg) :
    logFirst l = if FirstDisplayable l then .ok () else .error .valueError := by
  cases l with
  | nil => rfl
  | cons m l =>
    cases m <;> try rfl
    rename_i d
    simp only [logFirst, repr_eq]
    by_cases hd : Displayable d
    · rw [if_pos hd, if_pos (show FirstDisplayable (OutMsg.group _ _ _ d :: l) from hd)]
    · rw [if_neg hd, if_neg (show ¬ FirstDisplayable (OutMsg.group _ _ _ d :: l) from hd)]

theorem getTsap_group {a : AssocTable} {d : BitVec 16} (h : d ∈ a.at_.gas.map Addr.fs) :
    ∃ n, a.getTsap ⟨0, d⟩ = some (n + 1) := by
  unfold AssocTable.getTsap AddressTable.getTsap
  cases hi : AddressTable.index a.at_.gas ⟨0, d⟩ with
  | none => exact absurd h (AddressTable.index_none.1 hi)
  | some i => exact ⟨i, rfl⟩

theorem getTsap_foreign {a : AssocTable} {d : BitVec 16} (h : d ∉ a.at_.gas.map Addr.fs) :
    a.getTsap ⟨0, d⟩ = none ∨ a.getTsap ⟨0, d⟩ = some 0 := by
  unfold AssocTable.getTsap AddressTable.getTsap
  rw [AddressTable.index_none.2 h]
  simp only
  split_ifs
  · exact Or.inr rfl
  · exact Or.inl rfl

theorem fanOut_filter (g : GroupObjectTable) (asaps : List Asap) :
    (g.filter fun p => asaps.any fun a => a.eq p.1) = g.filter fun p => p.1.value ∈ asaps.map Asap.value := by
  apply List.filter_congr
  intro p _
  rw [Bool.eq_iff_iff]
  simp [Asap.eq]

/-- The group value services on a telegram to a registered, routed destination. -/
theorem groupService_fanOut {s : State} {a : AssocTable} {g : GroupObjectTable} (ha : s.assoc = some a)
    (hg : s.got = some g) {t : Telegram} {vs : List Int} (hr : a.Routes ⟨0, t.destination⟩ vs) (hv : vs ≠ [])
    (svc : Svc) (k : Kind) :
    groupServiceDecode svc k s.tables (ldataOf t) (payload t) = .ok (fanOut svc (confOf k t) g vs t.value) := by
  unfold AssocTable.Routes at hr
  rw [if_neg hv] at hr
  obtain ⟨r, hr1, hr2⟩ := hr
  have h1 : s.tables.getAsapsAndDpts (ldataOf t).destination = .ok (g.filter fun p => p.1.value ∈ vs) := by
    unfold Tables.getAsapsAndDpts Tables.getAsaps State.tables
    simp only [ha, hg]
    unfold AssocTable.getAsapsFromAddress at hr1
    rw [show (ldataOf t).destination = t.destination from rfl, show a.getTsap ⟨0, t.destination⟩
      = a.at_.getTsap ⟨0, t.destination⟩ from rfl, hr1]
    simp only [fanOut_filter, hr2]
  unfold groupServiceDecode groupValueDecode
  rw [h1]
  simp only [groupDataLoop_eq, conf_ldataOf]
  unfold fanOut
  rw [List.map_map]
  rfl

/-- The messages of a group telegram for the ASAPs `vs`. -/
def groupMsgs (k : Kind) (g : GroupObjectTable) (vs : List Int) (t : Telegram) : List OutMsg :=
  match t.service with
  | none => []
  | some svc => fanOut svc (confOf k t) g vs t.value

theorem tDataGroup_fanOut {s : State} {a : AssocTable} {g : GroupObjectTable} (ha : s.assoc = some a)
    (hg : s.got = some g) {t : Telegram} (hm : t.destination ∈ a.at_.gas.map Addr.fs)
    {vs : List Int} (hr : a.Routes ⟨0, t.destination⟩ vs) (hv : vs ≠ []) (k : Kind) :
    tDataGroupDecode k s.tables (ldataOf t) (payload t) =
      if FirstDisplayable (groupMsgs k g vs t) then .ok (groupMsgs k g vs t) else .error .valueError := by
  obtain ⟨n, hn⟩ := getTsap_group hm
  have h1 : s.tables.getTsap (ldataOf t).destination = .ok (some (n + 1)) := by
    unfold Tables.getTsap State.tables
    simp only [ha]
    exact congrArg _ hn
  unfold tDataGroupDecode
  rw [h1]
  simp only [apciFull_ldataOf, data_ldataOf, groupService_fanOut ha hg hr hv]
  have hc : (if t.code = 0 then Except.ok (fanOut .read (confOf k t) g vs t.value)
      else if (t.code : Int) - ((t.code % 64 : Nat) : Int) = 64 then .ok (fanOut .response (confOf k t) g vs t.value)
      else if (t.code : Int) - ((t.code % 64 : Nat) : Int) = 128 then .ok (fanOut .write (confOf k t) g vs t.value)
      else (.ok [] : Except Err (List OutMsg))) = .ok (groupMsgs k g vs t) := by
    unfold groupMsgs Telegram.service
    by_cases c0 : t.code = 0
    · simp [c0]
    · rw [if_neg c0, if_neg c0]
      by_cases c1 : t.code / 64 = 1
      · rw [if_pos (by omega), if_pos c1]
      · rw [if_neg (by omega), if_neg c1]
        by_cases c2 : t.code / 64 = 2
        · rw [if_pos (by omega), if_pos c2]
        · rw [if_neg (by omega), if_neg c2]
  rw [hc]
  simp only [logFirst_eq]
  by_cases hf : FirstDisplayable (groupMsgs k g vs t)
  · rw [if_pos hf, if_pos hf]
  · rw [if_neg hf, if_neg hf]

/-! ## Frames -/

theorem codeOf_cemi {k : Kind} {info : Msg} (t : Telegram) (hi : info.length < 256) (s : State) :
    msgCodeDecode (cemi (codeOf k) info t) s =
      (lDataDecode k s.tables (ldataOf t) (payload t), { s with ldata := some (ldataOf t) }) := by
  rw [msgCode_cemi t hi]
  cases k
  · rw [if_pos (by decide)]
    unfold cemiLdataDecode
    rw [makeFrom_octets]
    rfl
  · rw [if_neg (by decide), if_pos (by decide)]
    unfold cemiLdataDecode
    rw [makeFrom_octets]
    rfl

theorem carries_list {s s' : State} {m f : Msg} {pre l : List OutMsg} (hc : Carries s m f pre)
    (h : msgCodeDecode m s = (.ok (.list l), s')) : decodeMsg f s = (.ok (.list (pre ++ l)), s') := by
  unfold decodeMsg
  cases hc with
  | usb pad hm hl =>
    rw [hm]
    simp only [usb_open hl pad s, h, List.nil_append]
  | ip chan seq hm hs =>
    rw [hm]
    simp only [ip_open m hs, h]
    rfl

theorem carries_error {s s' : State} {m f : Msg} {pre : List OutMsg} (hc : Carries s m f pre) {e : Err}
    (h : msgCodeDecode m s = (.error e, s')) : decodeMsg f s = (.error e, s') := by
  unfold decodeMsg
  cases hc with
  | usb pad hm hl =>
    rw [hm]
    simp only [usb_open hl pad s, h]
  | ip chan seq hm hs =>
    rw [hm]
    simp only [ip_open m hs, h]

/-! ## C29 -/

/-- What decoding a group telegram to an associated address gives, in both cases of the display of the first value. -/
theorem telegram_decode {s : State} {a : AssocTable} {g : GroupObjectTable} (ha : s.assoc = some a)
    (hg : s.got = some g) {t : Telegram} (htg : t.IsGroup) (htd : t.IsData) (h0 : t.destination ≠ 0)
    (hm : t.destination ∈ a.at_.gas.map Addr.fs) {vs : List Int} (hr : a.Routes ⟨0, t.destination⟩ vs) (hv : vs ≠ [])
    {k : Kind} {info f : Msg} (hi : info.length < 256) {pre : List OutMsg}
    (hc : Carries s (cemi (codeOf k) info t) f pre) :
    decodeMsg f s =
      (if FirstDisplayable (groupMsgs k g vs t) then .ok (.list (pre ++ groupMsgs k g vs t)) else .error .valueError,
        { s with ldata := some (ldataOf t) }) := by
  have hl : lDataDecode k s.tables (ldataOf t) (payload t) =
      if FirstDisplayable (groupMsgs k g vs t) then .ok (.list (groupMsgs k g vs t)) else .error .valueError := by
    unfold lDataDecode
    rw [addressType_group htg]
    simp only
    rw [if_pos (show (ldataOf t).destination ≠ 0 from h0)]
    unfold nDataGroupDecode
    rw [if_pos ((nsdu_group htg h0).2 htd), tDataGroup_fanOut ha hg hm hr hv]
    split_ifs <;> rfl
  by_cases hf : FirstDisplayable (groupMsgs k g vs t)
  · rw [if_pos hf] at hl ⊢
    exact carries_list hc (by rw [codeOf_cemi t hi, hl])
  · rw [if_neg hf] at hl ⊢
    exact carries_error hc (by rw [codeOf_cemi t hi, hl])

/-- C29: a group telegram to a registered and associated address is delivered to exactly the associated ASAPs that have a
datapoint type, in group object order, each with the big-endian payload reduced to its type's width, as the service of
its application control information; nothing but the last received link frame changes in the state. Missing
from the full claim: telegrams whose first datapoint cannot be displayed (hypothesis `hf`), see `c29_refuted`. -/
theorem c29_fanout_partial {s : State} {a : AssocTable} {g : GroupObjectTable} (ha : s.assoc = some a)
    (hg : s.got = some g) {t : Telegram} (htg : t.IsGroup) (htd : t.IsData) (h0 : t.destination ≠ 0)
    (hm : t.destination ∈ a.at_.gas.map Addr.fs) {vs : List Int} (hr : a.Routes ⟨0, t.destination⟩ vs) (hv : vs ≠ [])
    {k : Kind} {info f : Msg} (hi : info.length < 256) {pre : List OutMsg}
    (hc : Carries s (cemi (codeOf k) info t) f pre)
    {svc : Svc} (hs : t.service = some svc) (hf : FirstDisplayable (fanOut svc (confOf k t) g vs t.value)) :
    (decodeMsg f s).1 = .ok (.list (pre ++ fanOut svc (confOf k t) g vs t.value)) ∧
    ∃ l, (decodeMsg f s).2 = { s with ldata := some l } := by
  have h := telegram_decode ha hg htg htd h0 hm hr hv hi hc
  have he : groupMsgs k g vs t = fanOut svc (confOf k t) g vs t.value := by
    unfold groupMsgs; rw [hs]
  rw [he, if_pos hf] at h
  rw [h]
  exact ⟨rfl, _, rfl⟩

/-- C29: other services (10 bit codes that are neither read, response nor write) yield nothing. -/
theorem c29_other {s : State} {a : AssocTable} {g : GroupObjectTable} (ha : s.assoc = some a)
    (hg : s.got = some g) {t : Telegram} (htg : t.IsGroup) (htd : t.IsData) (h0 : t.destination ≠ 0)
    (hm : t.destination ∈ a.at_.gas.map Addr.fs) {vs : List Int} (hr : a.Routes ⟨0, t.destination⟩ vs) (hv : vs ≠ [])
    {k : Kind} {info f : Msg} (hi : info.length < 256) {pre : List OutMsg}
    (hc : Carries s (cemi (codeOf k) info t) f pre) (hs : t.service = none) :
    (decodeMsg f s).1 = .ok (.list pre) := by
  have h := telegram_decode ha hg htg htd h0 hm hr hv hi hc
  have he : groupMsgs k g vs t = [] := by
    unfold groupMsgs; rw [hs]
  rw [he, if_pos (show FirstDisplayable [] from trivial)] at h
  rw [h]
  simp

/-- C29 from the calls that built the tables: for every history of successful `associate` and `disassociate` calls that
never disassociates a shared address, and every history of the group object table, a telegram to an address that is
associated at all is delivered once to each registered ASAP value associated with it, in order of registration, with the
type registered last. -/
theorem c29_history_partial {s : State} (at_ : AddressTable) (ops : List AssocTable.Op)
    (hops : ∀ op ∈ ops, op.Proper at_.ind) (hok : AssocTable.AllOk (AssocTable.init at_ []).2 ops)
    (hx : Spec.Exclusive at_.ind.fs (Spec.fresh at_.ind.fs) ops) (gops : List GroupObjectTable.Op)
    (ha : s.assoc = some ((AssocTable.init at_ []).2.afterAll ops))
    (hg : s.got = some (gops.foldl GroupObjectTable.after []))
    {t : Telegram} (htg : t.IsGroup) (htd : t.IsData) (h0 : t.destination ≠ 0) (hi : t.destination ≠ at_.ind.fs)
    (hv : Spec.routed (Spec.follow (Spec.fresh at_.ind.fs) ops) t.destination ≠ [])
    {k : Kind} {info f : Msg} (hlen : info.length < 256) {pre : List OutMsg}
    (hc : Carries s (cemi (codeOf k) info t) f pre) {svc : Svc} (hs : t.service = some svc)
    (hf : ∀ v c, Spec.typeOf v gops.reverse = some c → Displayable ⟨c, t.value % 256 ^ octets c⟩) :
    ∃ asaps : List (Asap × DptClass),
      (decodeMsg f s).1 = .ok (.list (pre ++ asaps.map fun p => .group svc (confOf k t) p.1
        ⟨p.2, t.value % 256 ^ octets p.2⟩)) ∧
      (asaps.map fun p => p.1.value) = (Spec.registered gops.reverse).filter
        (· ∈ Spec.routed (Spec.follow (Spec.fresh at_.ind.fs) ops) t.destination) ∧
      (asaps.map fun p => p.1.value).Nodup ∧
      ∀ p ∈ asaps, Spec.typeOf p.1.value gops.reverse = some p.2 := by
  obtain ⟨hk, hb⟩ := c09_reachable at_ ops hops hok hx
  have hr := c08_exclusive_partial at_ ops hops hok hx ⟨0, t.destination⟩
  obtain ⟨-, hat, hd, hb0⟩ := init_fresh at_
  obtain ⟨e1, -, e3⟩ := history_ok hb0 (by rw [hat]; exact hops) hok
  obtain ⟨g1, g2, g3⟩ := c14_map gops
  have hm : t.destination ∈ ((AssocTable.init at_ []).2.afterAll ops).at_.gas.map Addr.fs := by
    rcases hk t.destination (by
      rw [e1, hd, total_pos]
      obtain ⟨v, hv⟩ := List.exists_mem_of_ne_nil _ hv
      unfold Spec.routed at hv
      obtain ⟨p, hp, hp2⟩ := List.mem_flatMap.1 hv
      refine ⟨p, hp, ?_⟩
      rw [List.mem_replicate] at hp2
      exact List.count_pos_iff.1 (Nat.pos_of_ne_zero hp2.1)) with h | h
    · exact h
    · rw [e3, hat] at h
      exact absurd h hi
  have htype : ∀ p ∈ (gops.foldl GroupObjectTable.after ([] : GroupObjectTable)),
      Spec.typeOf p.1.value gops.reverse = some p.2 := by
    intro p hp
    have h1 := g1 p.1
    unfold GroupObjectTable.lookup at h1
    rw [dictGet_of_mem asap_keyEq g3 (show (p.1, p.2) ∈ _ from hp)] at h1
    simp only at h1
    split at h1
    · rename_i c hc
      rw [hc]
      simp only [Except.ok.injEq] at h1
      rw [h1]
    · cases h1
  refine ⟨(gops.foldl GroupObjectTable.after ([] : GroupObjectTable)).filter fun p =>
    p.1.value ∈ Spec.routed (Spec.follow (Spec.fresh at_.ind.fs) ops) t.destination, ?_, ?_, ?_, ?_⟩
  · refine (c29_fanout_partial ha hg htg htd h0 hm hr hv hlen hc hs ?_).1
    unfold fanOut
    cases hl : (gops.foldl GroupObjectTable.after ([] : GroupObjectTable)).filter fun p =>
        p.1.value ∈ Spec.routed (Spec.follow (Spec.fresh at_.ind.fs) ops) t.destination with
    | nil => exact trivial
    | cons p l =>
      have hp : p ∈ (gops.foldl GroupObjectTable.after ([] : GroupObjectTable)) := by
        have : p ∈ (gops.foldl GroupObjectTable.after ([] : GroupObjectTable)).filter fun p =>
          p.1.value ∈ Spec.routed (Spec.follow (Spec.fresh at_.ind.fs) ops) t.destination := by
          rw [hl]; exact List.mem_cons_self
        exact (List.mem_filter.1 this).1
      exact hf _ _ (htype p hp)
  · rw [← g2, List.filter_map]
    rfl
  · exact (List.filter_sublist.map fun p : Asap × DptClass => p.1.value).nodup g3
  · intro p hp
    exact htype p (List.mem_filter.1 hp).1

/-! An installation: two switches and a brightness on shared addresses, built by `exOps`. -/

def exGops : List GroupObjectTable.Op :=
  [.associate ⟨3, none⟩ .switch, .associate ⟨9, none⟩ .alarm, .associate ⟨7, none⟩ .float16]

def exState (m : Medium) : State :=
  { State.initIp m (some ((AssocTable.init exAt []).2.afterAll exOps))
      (some (exGops.foldl GroupObjectTable.after [])) with seqRemote := 255 }

/-- A write of 0x0C65 with additional information on KNXnet/IP, delivered to both ASAPs of the address. -/
def exTelegram : Telegram := ⟨0xBC, 0xE0, 0x110A, 0x0E89, 3, 0, 0x80, [0x0C, 0x65]⟩

example :
    (decodeMsg (tunnelRequest 7 255 (cemi 0x29 [3, 4, 5] exTelegram)) (exState .knxnetIp)).1 =
      .ok (.list [.tunnelingReq 255 .noError, .group .write .ind ⟨3, none⟩ ⟨.switch, 0x65⟩,
        .group .write .ind ⟨7, none⟩ ⟨.float16, 0x0C65⟩]) := by
  refine (c29_fanout_partial (s := exState .knxnetIp) (t := exTelegram) (vs := [7, 3]) (k := .ind) rfl rfl (by
    show 128 ≤ _; decide) (by show _ < 4; decide) (by decide) (by decide) ?_ (by decide) (info := [3, 4, 5]) (by decide)
    (.ip 7 255 rfl (by decide)) (svc := .write) (by decide) (by decide)).1
  exact c08_exclusive_partial exAt exOps (by decide) (by decide) (by decide) _

example : ∃ asaps : List (Asap × DptClass),
    (decodeMsg (usbReport (cemi 0x2E [] exTelegram) ++ [1, 2, 3]) (exState .usbHid)).1 =
      .ok (.list (asaps.map fun p => .group .write (.con .ok) p.1 ⟨p.2, 0x0C65 % 256 ^ octets p.2⟩)) ∧
    (asaps.map fun p => p.1.value) = [3, 7] := by
  obtain ⟨asaps, h1, h2, -⟩ := c29_history_partial (s := exState .usbHid) (t := exTelegram) (k := .con) (info := [])
    exAt exOps (by decide) (by decide) (by decide) exGops rfl rfl (by show 128 ≤ _; decide)
    (by show _ < 4; decide) (by decide) (by decide) (by decide) (by decide) (.usb [1, 2, 3] rfl (by decide))
    (svc := .write) (by decide) (by
      intro v c hc
      have : c ≠ .setupClima ∧ c ≠ .infoClimaReport := by
        simp only [exGops, List.reverse_cons, List.reverse_nil, List.nil_append, List.cons_append, Spec.typeOf] at hc
        split_ifs at hc <;> simp at hc <;> subst hc <;> decide
      rintro ⟨h | h, -⟩
      · exact this.1 h
      · exact this.2 h)
  exact ⟨asaps, h1, h2⟩

example : (⟨0xBC, 0xE0, 0x110A, 0x0E89, 1, 0x02, 0xC0, []⟩ : Telegram).service = none := by decide

/-! ## C30 -/

/-- C30: a group telegram to an address that is not in the address table (also if it is the individual address) yields
no message and no exception, whatever its service and payload, and with or without a group object table. -/
theorem c30_foreign {s : State} {a : AssocTable} (ha : s.assoc = some a) {t : Telegram} (htg : t.IsGroup)
    (htd : t.IsData ∨ t.destination = 0) (hm : t.destination ∉ a.at_.gas.map Addr.fs) {k : Kind} {info f : Msg}
    (hi : info.length < 256) {pre : List OutMsg} (hc : Carries s (cemi (codeOf k) info t) f pre) :
    (decodeMsg f s).1 = .ok (.list pre) := by
  have hl : lDataDecode k s.tables (ldataOf t) (payload t) = .ok (.list []) := by
    unfold lDataDecode
    rw [addressType_group htg]
    simp only
    by_cases h0 : t.destination = 0
    · rw [if_neg (show ¬ (ldataOf t).destination ≠ 0 from not_not.2 h0)]
    · rw [if_pos (show (ldataOf t).destination ≠ 0 from h0)]
      unfold nDataGroupDecode
      rw [if_pos ((nsdu_group htg h0).2 (htd.resolve_right h0))]
      unfold tDataGroupDecode
      have h1 : s.tables.getTsap (ldataOf t).destination = .ok (a.getTsap ⟨0, t.destination⟩) := by
        unfold Tables.getTsap State.tables
        simp only [ha]
        rfl
      rw [h1]
      rcases getTsap_foreign hm with h2 | h2 <;> rw [h2]
  rw [carries_list hc (by rw [codeOf_cemi t hi, hl])]
  simp

example : (decodeMsg (usbReport (cemi 0x29 [] { exTelegram with destination := 0x0E03 })) (exState .usbHid)).1 =
    .ok (.list []) := by
  have := c30_foreign (s := exState .usbHid) (t := { exTelegram with destination := 0x0E03 }) (k := .ind) (info := [])
    rfl (by show 128 ≤ _; decide) (Or.inl (by show _ < 4; decide)) (by decide) (by decide) (.usb [] rfl (by decide))
  simpa [codeOf] using this

end Knx
