import Verif.Spec.TableMachine
import Verif.Props.AssocTables

/-! # C83: the association table is the reference machine -/

namespace Knx
open AssocTable AddressTable Spec

/-! ## Places -/

theorem place_perm {ind : BitVec 16} {k k' : List (BitVec 16)} (h : k.Perm k') (x : BitVec 16) :
    place ind k x = place ind k' x := by
  unfold place
  rw [h.countP_eq]
  simp only [h.mem_iff]

theorem index_place {l : List Addr} (hs : l.Pairwise fun a b => a.fs.toNat ≤ b.fs.toNat) (a : Addr)
    (hm : a.fs ∈ l.map Addr.fs) :
    index l a = some ((l.map Addr.fs).countP fun y => y.toNat < a.fs.toNat) := by
  induction l with
  | nil => simp at hm
  | cons x l ih =>
    rw [List.pairwise_cons] at hs
    simp only [index, List.map_cons, List.countP_cons]
    by_cases hx : x.fs = a.fs
    · rw [if_pos ((eq_iff x a).2 hx)]
      have h0 : (l.map Addr.fs).countP (fun y => decide (y.toNat < a.fs.toNat)) = 0 := by
        rw [List.countP_eq_zero]
        intro y hy
        obtain ⟨z, hz, rfl⟩ := List.mem_map.1 hy
        have := hs.1 z hz
        rw [hx] at this
        simpa using this
      simp only [h0, hx, lt_irrefl, decide_false, Bool.false_eq_true, if_false, Nat.add_zero]
    · have hb : ¬ x.eq a = true := fun h => hx ((eq_iff x a).1 h)
      rw [if_neg hb]
      have hm' : a.fs ∈ l.map Addr.fs := by
        rcases List.mem_cons.1 hm with h | h
        · exact absurd h.symm hx
        · exact h
      obtain ⟨z, hz, he⟩ := List.mem_map.1 hm'
      have hle := hs.1 z hz
      rw [he] at hle
      have hlt : x.fs.toNat < a.fs.toNat := by
        rcases Nat.lt_or_eq_of_le hle with h | h
        · exact h
        · exact absurd (BitVec.eq_of_toNat_eq h) hx
      rw [ih hs.2 hm']
      simp [hlt]

theorem getTsap_place {t : AddressTable} (hs : t.gas.Pairwise fun a b => a.fs.toNat ≤ b.fs.toNat)
    {k : List (BitVec 16)} (hp : (t.gas.map Addr.fs).Perm k) (a : Addr) :
    t.getTsap a = place t.ind.fs k a.fs := by
  rw [← place_perm hp]
  unfold AddressTable.getTsap place
  by_cases hm : a.fs ∈ t.gas.map Addr.fs
  · rw [index_place hs a hm, if_pos hm]
  · rw [index_none.2 hm, if_neg hm]
    simp only [Addr.eq, beq_iff_eq]

/-! ## The tables and the machine -/

/-- The index was built from these tables. -/
structure BuiltFrom (t : AssocTable) (at0 : AddressTable) (d0 : List (Asap × List Addr)) : Prop where
  index : t.tsapAsaps = (pairs at0 d0).foldl pairStep []
  ind : at0.ind = t.at_.ind
  sorted : at0.gas.Pairwise fun a b => a.fs.toNat ≤ b.fs.toNat

/-- The tables are in the state of the machine. -/
structure Agrees (t : AssocTable) (ind : Addr) (max : Nat) (s : TableState) : Prop where
  hind : t.at_.ind = ind
  hmax : t.at_.maxSize = max
  sorted : t.at_.gas.Pairwise fun a b => a.fs.toNat ≤ b.fs.toNat
  known : (t.at_.gas.map Addr.fs).Perm s.known
  assoc : t.absDict = s.assoc
  seen : ∃ at0 d0, BuiltFrom t at0 d0 ∧ (at0.gas.map Addr.fs).Perm s.seenKnown ∧
    d0.map (fun p => (p.1.value, p.2.map Addr.fs)) = s.seenAssoc

theorem agrees_renewed {t : AssocTable} {ind : Addr} {max : Nat} {s : TableState} (h : Agrees t ind max s) :
    Agrees t.rebuild ind max s.renewed :=
  ⟨h.hind, h.hmax, h.sorted, h.known, h.assoc,
    t.at_, t.asapAddrs, ⟨rebuild_pairs t, rfl, h.sorted⟩, h.known, h.assoc⟩

theorem agrees_blank (at_ : AddressTable) (hs : at_.gas.Pairwise fun a b => a.fs.toNat ≤ b.fs.toNat) :
    Agrees (AssocTable.blank at_) at_.ind at_.maxSize (.start (at_.gas.map Addr.fs)) :=
  ⟨rfl, rfl, hs, List.Perm.refl _, rfl, at_, [], ⟨rfl, rfl, hs⟩, List.Perm.refl _, rfl⟩

/-- Changing the address table alone. -/
theorem agrees_known {t : AssocTable} {ind : Addr} {max : Nat} {s : TableState} (h : Agrees t ind max s)
    {l : List Addr} {k : List (BitVec 16)} (hp : (l.map Addr.fs).Perm k) :
    Agrees { t with at_ := { t.at_ with gas := sort l } } ind max { s with known := k } := by
  obtain ⟨at0, d0, hb, h1, h2⟩ := h.seen
  exact ⟨h.hind, h.hmax, sort_sorted l, (sort_fs_perm l).trans hp, h.assoc, at0, d0,
    ⟨hb.index, hb.ind, hb.sorted⟩, h1, h2⟩

/-! ### associate -/

theorem newOnes_skip (ind : Addr) (k : List (BitVec 16)) (a : Addr) (as : List Addr)
    (h : a.fs ∈ k ∨ a.oid = ind.oid) : newOnes ind k (a :: as) = newOnes ind k as := by
  unfold newOnes
  by_cases ho : a.oid = ind.oid
  · simp [ho]
  · have hk : a.fs ∈ k := h.resolve_right ho
    simp [ho, hk]

theorem newOnes_take (ind : Addr) (k : List (BitVec 16)) (a : Addr) (as : List Addr)
    (h : a.fs ∉ k) (ho : a.oid ≠ ind.oid) :
    newOnes ind k (a :: as) = a.fs :: newOnes ind (k ++ [a.fs]) as := by
  unfold newOnes
  have : ((a :: as).filter fun a => decide (a.oid ≠ ind.oid)) = a :: as.filter fun a => decide (a.oid ≠ ind.oid) := by
    simp [ho]
  rw [this, List.map_cons, List.filter_cons, if_pos (by simpa using h), List.eraseDups_cons, List.filter_filter]
  congr 2
  apply List.filter_congr
  intro x _
  by_cases hx : x = a.fs
  · simp [hx]
  · simp [hx]

theorem newOnes_perm (ind : Addr) {k k' : List (BitVec 16)} (h : k.Perm k') (as : List Addr) :
    newOnes ind k as = newOnes ind k' as := by
  unfold newOnes
  simp only [h.mem_iff]

theorem agrees_adds (as : List Addr) {t : AssocTable} {ind : Addr} {max : Nat} {s : TableState}
    (h : Agrees t ind max s) :
    let new := newOnes ind s.known as
    if new = [] ∨ s.known.length + new.length ≤ max then
      (Py.forEach as associateAdd t).1 = .ok () ∧
        Agrees (Py.forEach as associateAdd t).2 ind max { s with known := s.known ++ new }
    else (Py.forEach as associateAdd t).1 = .error .addressTable ∧
        Agrees (Py.forEach as associateAdd t).2 ind max { s with known := s.known ++ new.take (max - s.known.length) } := by
  induction as generalizing t s with
  | nil =>
    have e : newOnes ind s.known [] = [] := rfl
    simp only [e, true_or, if_true, List.append_nil]
    exact ⟨rfl, h⟩
  | cons a as ih =>
    simp only [Py.forEach, Py.bind]
    have hlen : t.at_.gas.length = s.known.length := by simpa using h.known.length_eq
    rcases associateAdd_cases a t with ⟨e, hm⟩ | ⟨hm, ho, hl, e⟩ | ⟨hm, ho, hl, e⟩
    · rw [e]
      rw [h.known.mem_iff, h.hind] at hm
      simp only [newOnes_skip ind s.known a as hm]
      exact ih h
    · rw [e]
      rw [h.known.mem_iff] at hm
      rw [h.hind] at ho
      rw [hlen, h.hmax] at hl
      have h' : Agrees { t with at_ := { t.at_ with gas := sort (t.at_.gas ++ [a]) } } ind max
          { s with known := s.known ++ [a.fs] } :=
        agrees_known h (by
          rw [List.map_append]
          exact h.known.append_right _)
      have := ih h'
      simp only [newOnes_take ind s.known a as hm ho]
      simp only [List.length_append, List.length_cons, List.length_nil, Nat.zero_add, List.append_assoc,
        List.singleton_append, reduceCtorEq, false_or] at this ⊢
      generalize newOnes ind (s.known ++ [a.fs]) as = new at this ⊢
      by_cases hc : s.known.length + (new.length + 1) ≤ max
      · rw [if_pos hc]
        rw [if_pos (Or.inr (by omega))] at this
        exact this
      · rw [if_neg hc]
        have hne : ¬ (new = [] ∨ s.known.length + 1 + new.length ≤ max) := by
          rintro (rfl | hx)
          · simp at hc; omega
          · omega
        rw [if_neg hne] at this
        have e1 : max - s.known.length = (max - (s.known.length + 1)) + 1 := by omega
        rw [e1, List.take_succ_cons]
        exact this
    · rw [e]
      rw [h.known.mem_iff] at hm
      rw [h.hind] at ho
      rw [hlen, h.hmax] at hl
      simp only [newOnes_take ind s.known a as hm ho]
      have hne : ¬ (a.fs :: newOnes ind (s.known ++ [a.fs]) as = [] ∨
          s.known.length + (a.fs :: newOnes ind (s.known ++ [a.fs]) as).length ≤ max) := by
        simp only [reduceCtorEq, List.length_cons, false_or]
        omega
      rw [if_neg hne]
      have e1 : max - s.known.length = 0 := by omega
      rw [e1, List.take_zero, List.append_nil]
      exact ⟨trivial, h⟩

theorem agrees_associate {t : AssocTable} {ind : Addr} {max : Nat} {s : TableState} (h : Agrees t ind max s)
    (asap : Asap) (as : List Addr) :
    (associate asap as t).1 = (s.associate ind max asap.value as).1 ∧
      Agrees (associate asap as t).2 ind max (s.associate ind max asap.value as).2 := by
  have := agrees_adds as h
  rw [associate_eq]
  unfold TableState.associate
  simp only at this ⊢
  generalize newOnes ind s.known as = new at this ⊢
  rcases hf : Py.forEach as associateAdd t with ⟨r, t'⟩
  rw [hf] at this
  by_cases hc : new = [] ∨ s.known.length + new.length ≤ max
  · rw [if_pos hc] at this ⊢
    obtain ⟨h1, h2⟩ := this
    simp only at h1 h2
    subst h1
    refine ⟨rfl, ?_⟩
    apply agrees_renewed (t := associateAppend asap as t')
    obtain ⟨at0, d0, hb, g1, g2⟩ := h2.seen
    refine ⟨h2.hind, h2.hmax, h2.sorted, h2.known, ?_, at0, d0, ⟨hb.index, hb.ind, hb.sorted⟩, g1, g2⟩
    rw [absDict_append, h2.assoc]
  · rw [if_neg hc] at this ⊢
    obtain ⟨h1, h2⟩ := this
    simp only at h1 h2
    subst h1
    exact ⟨rfl, h2⟩

/-! ### disassociate -/

theorem keys_iff (t : AssocTable) (asap : Asap) :
    dictGet Asap.eq t.asapAddrs asap = none ↔ asap.value ∉ t.absDict.map (·.1) := by
  unfold absDict
  induction t.asapAddrs with
  | nil => simp [dictGet]
  | cons p d ih =>
    obtain ⟨k, l⟩ := p
    simp only [dictGet, List.map_cons, List.mem_cons, not_or]
    by_cases hk : k.value = asap.value
    · have : Asap.eq k asap = true := by simpa [Asap.eq] using hk
      simp [this, hk]
    · have : ¬ Asap.eq k asap = true := by simpa [Asap.eq] using hk
      rw [if_neg this, ih]
      constructor
      · exact fun h => ⟨fun e => hk e.symm, h⟩
      · exact fun h => h.2

/-- The first half of a round of `disassociate` (association_table.py:203-204). -/
def forget (a : Addr) : Py AssocTable Unit := fun t =>
  if !(a.eq t.ind) then onAddressTable (AddressTable.remove a) t else (.ok (), t)

/-- The second half of a round of `disassociate` (association_table.py:205). -/
def takeFrom (asap : Asap) (a : Addr) : Py AssocTable Unit := fun t =>
  match dictGet Asap.eq t.asapAddrs asap with
  | none => (.error .keyError, t)
  | some l =>
    match AddressTable.removeFirst l a with
    | none => (.error .valueError, t)
    | some l' => (.ok (), { t with asapAddrs := dictSet Asap.eq t.asapAddrs asap l' })

theorem disassociateOne_eq (asap : Asap) (a : Addr) :
    disassociateOne asap a = Py.bind (forget a) fun _ => takeFrom asap a := rfl

theorem agrees_takeFrom {t : AssocTable} {ind : Addr} {max : Nat} {s : TableState} (h : Agrees t ind max s)
    (asap : Asap) (a : Addr) :
    if asap.value ∉ s.assoc.map (·.1) then takeFrom asap a t = (.error .keyError, t)
    else if a.fs ∉ addressesOf s.assoc asap.value then takeFrom asap a t = (.error .valueError, t)
    else ∃ t', takeFrom asap a t = (.ok (), t') ∧
      Agrees t' ind max { s with assoc := Spec.disassociate s.assoc asap.value [a.fs] } := by
  unfold takeFrom
  have hk := keys_iff t asap
  have hget := absDict_get t asap
  rw [h.assoc] at hk hget
  cases hd : dictGet Asap.eq t.asapAddrs asap with
  | none => simp [hk.1 hd]
  | some l =>
    rw [hd] at hk hget
    simp only [reduceCtorEq, false_iff, not_not] at hk
    simp only [Option.getD_some] at hget
    simp only [hk, not_true_eq_false, if_false]
    rw [← hget]
    cases hl : removeFirst l a with
    | none =>
      have := removeFirst_none.1 hl
      simp [this]
    | some l' =>
      have hm := (removeFirst_some hl).2.1
      simp only [hm, not_true_eq_false, if_false]
      obtain ⟨at0, d0, hb, g1, g2⟩ := h.seen
      refine ⟨_, rfl, h.hind, h.hmax, h.sorted, h.known, ?_, at0, d0, ⟨hb.index, hb.ind, hb.sorted⟩, g1, g2⟩
      simp only
      rw [← h.assoc]
      exact specDisassociate_one _ asap a l l' hd hl

theorem agrees_gives (as : List Addr) {t : AssocTable} {ind : Addr} {max : Nat} {s : TableState}
    (h : Agrees t ind max s) (asap : Asap) :
    (Py.forEach as (disassociateOne asap) t).1 = (s.giveUp ind.fs asap.value (as.map Addr.fs)).1 ∧
      Agrees (Py.forEach as (disassociateOne asap) t).2 ind max (s.giveUp ind.fs asap.value (as.map Addr.fs)).2 := by
  induction as generalizing t s with
  | nil => exact ⟨rfl, h⟩
  | cons a as ih =>
    simp only [Py.forEach, List.map_cons, TableState.giveUp]
    -- the address table
    have first : forget a t = (.error .valueError, t) ∧ s.Unknown ind.fs a.fs ∨
        ¬ s.Unknown ind.fs a.fs ∧ ∃ t1, forget a t = (.ok (), t1) ∧
          Agrees t1 ind max (if a.fs = ind.fs then s else { s with known := s.known.erase a.fs }) := by
      unfold forget
      unfold TableState.Unknown
      by_cases hi : a.fs = ind.fs
      · right
        refine ⟨by simp [hi], t, ?_, by rw [if_pos hi]; exact h⟩
        have : a.eq t.ind = true := by simp [Addr.eq, AssocTable.ind, h.hind, hi]
        simp [this]
      · have hb : a.eq t.ind = false := by simp [Addr.eq, AssocTable.ind, h.hind, hi]
        simp only [hb, Bool.not_false, if_true, onAddressTable]
        rcases remove_cases a t.at_ with ⟨e, hm⟩ | ⟨l, e, hr, hm⟩
        · left
          rw [e]
          rw [h.known.mem_iff] at hm
          exact ⟨rfl, hm, hi⟩
        · right
          rw [e]
          rw [h.known.mem_iff] at hm
          refine ⟨fun hx => hx.1 hm, _, rfl, ?_⟩
          rw [if_neg hi]
          apply agrees_known h
          rw [(removeFirst_some hr).1]
          exact h.known.erase _
    rw [disassociateOne_eq]
    simp only [Py.bind]
    rcases first with ⟨e, hu⟩ | ⟨hu, t1, e, h1⟩
    · rw [e, if_pos hu]
      exact ⟨rfl, h⟩
    · rw [e, if_neg hu]
      simp only
      have hassoc : (if a.fs = ind.fs then s else { s with known := s.known.erase a.fs }).assoc = s.assoc := by
        split_ifs <;> rfl
      have key := agrees_takeFrom h1 asap a
      rw [hassoc] at key
      by_cases hk : asap.value ∉ s.assoc.map (·.1)
      · rw [if_pos hk] at key ⊢
        rw [key]
        exact ⟨rfl, h1⟩
      · rw [if_neg hk] at key ⊢
        by_cases hm : a.fs ∉ addressesOf s.assoc asap.value
        · rw [if_pos hm] at key ⊢
          rw [key]
          exact ⟨rfl, h1⟩
        · rw [if_neg hm] at key ⊢
          obtain ⟨t2, k1, k2⟩ := key
          rw [k1]
          exact ih k2

theorem agrees_perform {t : AssocTable} {ind : Addr} {max : Nat} {s : TableState} (h : Agrees t ind max s)
    (op : AssocTable.Op) :
    (perform op t).1 = (s.call ind max op).1 ∧ Agrees (perform op t).2 ind max (s.call ind max op).2 := by
  cases op with
  | associate asap as => exact agrees_associate h asap as
  | disassociate asap as =>
    have := agrees_gives as h asap
    simp only [perform, TableState.call, TableState.disassociate]
    rw [disassociate_eq]
    rcases hf : Py.forEach as (disassociateOne asap) t with ⟨r, t'⟩
    rcases hg : s.giveUp ind.fs asap.value (as.map Addr.fs) with ⟨r', s'⟩
    rw [hf, hg] at this
    obtain ⟨h1, h2⟩ := this
    simp only at h1 h2
    subst h1
    cases r with
    | error e => exact ⟨rfl, h2⟩
    | ok u => exact ⟨rfl, agrees_renewed h2⟩
  | addAddress a =>
    simp only [perform, TableState.call, onAddressTable]
    have hlen : t.at_.gas.length = s.known.length := by simpa using h.known.length_eq
    rcases add_cases a t.at_ with ⟨e, h1, h2⟩ | ⟨e, h1, h2⟩ | ⟨e, h1⟩
    · rw [e]
      rw [h.known.mem_iff, h.hind] at h2
      rw [hlen, h.hmax] at h1
      rw [if_neg h2, if_pos h1]
      refine ⟨rfl, agrees_known h ?_⟩
      rw [List.map_append]
      exact h.known.append_right _
    · rw [e]
      rw [h.known.mem_iff, h.hind] at h2
      rw [hlen, h.hmax] at h1
      rw [if_neg h2, if_neg (by omega)]
      exact ⟨rfl, h⟩
    · rw [e]
      rw [h.known.mem_iff, h.hind] at h1
      rw [if_pos h1]
      exact ⟨rfl, h⟩
  | removeAddress a =>
    simp only [perform, TableState.call, onAddressTable]
    rcases remove_cases a t.at_ with ⟨e, hm⟩ | ⟨l, e, hr, hm⟩
    · rw [e]
      rw [h.known.mem_iff] at hm
      rw [if_neg hm]
      exact ⟨rfl, h⟩
    · rw [e]
      rw [h.known.mem_iff] at hm
      rw [if_pos hm]
      refine ⟨rfl, agrees_known h ?_⟩
      rw [(removeFirst_some hr).1]
      exact h.known.erase _

theorem agrees_history {t : AssocTable} {ind : Addr} {max : Nat} {s : TableState} (h : Agrees t ind max s)
    (ops : List AssocTable.Op) :
    t.callResults ops = s.raises ind max ops ∧ Agrees (t.afterAll ops) ind max (s.run ind max ops) := by
  induction ops generalizing t s with
  | nil => exact ⟨rfl, h⟩
  | cons op ops ih =>
    obtain ⟨h1, h2⟩ := agrees_perform h op
    obtain ⟨g1, g2⟩ := ih h2
    simp only [AssocTable.callResults, TableState.raises, h1, g1, true_and]
    exact g2

/-! ### Lookups -/

theorem agrees_routes {t : AssocTable} {ind : Addr} {max : Nat} {s : TableState} (h : Agrees t ind max s) (a : Addr) :
    t.Routes a (s.listed ind.fs a.fs) := by
  obtain ⟨at0, d0, hb, g1, g2⟩ := h.seen
  have hp : t.at_.getTsap a = place ind.fs s.known a.fs := h.hind ▸ getTsap_place h.sorted h.known a
  have h0 : ∀ x : Addr, at0.getTsap x = place ind.fs s.seenKnown x.fs := fun x =>
    (h.hind ▸ hb.ind : at0.ind = ind) ▸ getTsap_place hb.sorted g1 x
  have e : (((pairs at0 d0).filter fun q => q.1 == t.at_.getTsap a).map (·.2)).map Asap.value =
      s.listed ind.fs a.fs := by
    unfold TableState.listed
    rw [← g2, hp]
    unfold pairs
    clear hb g2
    induction d0 with
    | nil => rfl
    | cons p d ih =>
      simp only [List.flatMap_cons, List.filter_append, List.map_append, List.map_cons, ih]
      congr 1
      induction p.2 with
      | nil => rfl
      | cons x l ih2 =>
        simp only [List.map_cons, List.filter_cons, List.countP_cons, h0 x]
        by_cases hx : place ind.fs s.seenKnown x.fs = place ind.fs s.known a.fs
        · simp only [hx, beq_self_eq_true, if_true, List.map_cons, decide_true, List.replicate_succ]
          rw [ih2]
        · have hb' : (place ind.fs s.seenKnown x.fs == place ind.fs s.known a.fs) = false := by simpa using hx
          simp only [hb', Bool.false_eq_true, if_false, hx, decide_false, Nat.add_zero]
          exact ih2
  unfold Routes getAsapsFromAddress getAsaps
  rw [hb.index, dictGet_fold, ← e]
  by_cases hf : ((pairs at0 d0).filter fun q => q.1 == t.at_.getTsap a) = []
  · simp [hf, dictGet]
  · simp [hf, dictGet]

theorem agrees_sent {t : AssocTable} {ind : Addr} {max : Nat} {s : TableState} (h : Agrees t ind max s) (asap : Asap) :
    t.sendAddresses asap = s.sent ind.fs asap.value := by
  have hk := keys_iff t asap
  have hget := absDict_get t asap
  rw [h.assoc] at hk hget
  unfold TableState.sent
  have hu : ∀ x : Addr, t.at_.getTsap x = none ↔ s.Unknown ind.fs x.fs := by
    intro x
    rw [getTsap_none, h.known.mem_iff, h.hind]
    rfl
  cases hd : dictGet Asap.eq t.asapAddrs asap with
  | none => rw [if_pos (hk.1 hd), send_unknown hd]
  | some l =>
    rw [hd] at hk hget
    simp only [reduceCtorEq, false_iff] at hk
    simp only [Option.getD_some] at hget
    rw [if_neg hk, ← hget]
    by_cases hc : ∃ x ∈ l.map Addr.fs, s.Unknown ind.fs x
    · rw [if_pos hc]
      obtain ⟨x, hx, hx'⟩ := hc
      obtain ⟨y, hy, rfl⟩ := List.mem_map.1 hx
      unfold sendAddresses getTsaps
      rw [hd]
      simp only
      rw [getAddresses_unresolved ⟨y, hy, (hu y).2 hx'⟩]
    · rw [if_neg hc]
      exact send_resolved hd fun y hy hn => hc ⟨y.fs, List.mem_map_of_mem hy, (hu y).1 hn⟩

/-! ### Tables whose index is up to date -/

/-- The state of a table whose index is up to date. -/
def currentState (t : AssocTable) : TableState :=
  ⟨t.at_.gas.map Addr.fs, t.absDict, t.at_.gas.map Addr.fs, t.absDict⟩

theorem agrees_current {t : AssocTable} (hs : t.at_.gas.Pairwise fun a b => a.fs.toNat ≤ b.fs.toNat)
    (hb : t.rebuild = t) : Agrees t t.at_.ind t.at_.maxSize (currentState t) :=
  ⟨rfl, rfl, hs, List.Perm.refl _, rfl, t.at_, t.asapAddrs,
    ⟨by rw [← rebuild_pairs, hb], rfl, hs⟩, List.Perm.refl _, rfl⟩

theorem place_inj {ind : BitVec 16} {k : List (BitVec 16)} {x y : BitVec 16} (h : place ind k x = place ind k y)
    (hn : place ind k x ≠ none) : x = y := by
  have key : ∀ x y : BitVec 16, x ∈ k → x.toNat < y.toNat →
      k.countP (fun z => decide (z.toNat < x.toNat)) < k.countP (fun z => decide (z.toNat < y.toNat)) := by
    intro x y hx hlt
    have : k.countP (fun z => decide (z.toNat < x.toNat)) + k.countP (fun z => decide (z = x)) ≤
        k.countP (fun z => decide (z.toNat < y.toNat)) := by
      clear hx h hn
      induction k with
      | nil => simp
      | cons z k ih =>
        simp only [List.countP_cons]
        by_cases h1 : z = x
        · subst h1
          simp only [lt_irrefl, decide_false, Bool.false_eq_true, if_false, decide_true, if_true, hlt]
          omega
        · by_cases h2 : z.toNat < x.toNat
          · have h3 : z.toNat < y.toNat := by omega
            simp only [h1, h2, h3, decide_false, decide_true, Bool.false_eq_true, if_false, if_true]
            omega
          · simp only [h1, h2, decide_false, Bool.false_eq_true, if_false]
            omega
    have hpos : 0 < k.countP (fun z => decide (z = x)) := List.countP_pos_iff.2 ⟨x, hx, by simp⟩
    omega
  unfold place at h hn
  by_cases hx : x ∈ k
  · by_cases hy : y ∈ k
    · rw [if_pos hx, if_pos hy] at h
      simp only [Option.some.injEq, Nat.add_right_cancel_iff] at h
      rcases Nat.lt_trichotomy x.toNat y.toNat with hl | hl | hl
      · have := key x y hx hl; omega
      · exact BitVec.eq_of_toNat_eq hl
      · have := key y x hy hl; omega
    · rw [if_pos hx, if_neg hy] at h
      split_ifs at h with h1
      simp at h
  · by_cases hy : y ∈ k
    · rw [if_neg hx, if_pos hy] at h
      split_ifs at h with h1
      simp at h
    · rw [if_neg hx, if_neg hy] at h
      rw [if_neg hx] at hn
      by_cases h1 : x = ind
      · by_cases h2 : y = ind
        · rw [h1, h2]
        · rw [if_pos h1, if_neg h2] at h; simp at h
      · rw [if_neg h1] at hn; exact absurd rfl hn

theorem place_none {ind : BitVec 16} {k : List (BitVec 16)} {x : BitVec 16} :
    place ind k x = none ↔ x ∉ k ∧ x ≠ ind := by
  unfold place
  by_cases hx : x ∈ k
  · simp [hx]
  · by_cases hi : x = ind
    · rw [if_neg hx, if_pos hi]
      simp [hi]
    · simp [hx, hi]

/-- What is listed when the memory is current: for an address with a place the ASAPs associated with it; for an unknown
address the ASAPs of all unknown addresses together. -/
theorem listed_current (ind : BitVec 16) (k : List (BitVec 16)) (d : Assoc) (x : BitVec 16) :
    (⟨k, d, k, d⟩ : TableState).listed ind x =
      if x ∈ k ∨ x = ind then routed d x
      else d.flatMap fun p => List.replicate (p.2.countP fun y => y ∉ k ∧ y ≠ ind) p.1 := by
  unfold TableState.listed routed
  split_ifs with h
  · have hx : place ind k x ≠ none := by
      rw [Ne, place_none]
      rintro ⟨h1, h2⟩
      exact h.elim h1 h2
    congr 1
    funext p
    congr 1
    unfold List.count
    apply List.countP_congr
    intro y _
    simp only [decide_eq_true_eq, beq_iff_eq]
    constructor
    · exact fun e => (place_inj e.symm hx).symm
    · rintro rfl; rfl
  · have hx : place ind k x = none := place_none.2 ⟨fun h1 => h (Or.inl h1), fun h2 => h (Or.inr h2)⟩
    simp only [hx, place_none]

/-! ## C83 -/

/-- C83: for every address table and every history of `associate` and `disassociate` calls and of calls of `add` and
`remove` on the shared address table, in any order and whether they raise or not, each call raises what the reference
machine says, and afterwards every lookup (the ASAPs of an address, the addresses of an ASAP, the table itself) gives
what the state of the machine says. -/
theorem c83_machine (ia : Addr) (as : List Addr) (max : Nat) (ops : List AssocTable.Op) :
    let t := (AssocTable.blank (AddressTable.init ia as max)).afterAll ops
    let s := (TableState.start (as.map Addr.fs)).run ia max ops
    (AssocTable.blank (AddressTable.init ia as max)).callResults ops =
        (TableState.start (as.map Addr.fs)).raises ia max ops ∧
      (∀ a, t.Routes a (s.listed ia.fs a.fs)) ∧
      (∀ asap, t.sendAddresses asap = s.sent ia.fs asap.value) ∧
      (t.at_.gas.map Addr.fs).Perm s.known ∧ t.asaps.map Asap.value = s.assoc.map (·.1) := by
  have h0 : Agrees (AssocTable.blank (AddressTable.init ia as max)) ia max (.start (as.map Addr.fs)) :=
    ⟨rfl, rfl, sort_sorted as, sort_fs_perm as, rfl, AddressTable.init ia as max, [], ⟨rfl, rfl, sort_sorted as⟩,
      sort_fs_perm as, rfl⟩
  obtain ⟨h1, h2⟩ := agrees_history h0 ops
  refine ⟨h1, agrees_routes h2, agrees_sent h2, h2.known, ?_⟩
  rw [← h2.assoc]
  simp [AssocTable.asaps, absDict]

/-- C83: the constructor is the first calls of such a history; it raises exactly if one of them does. -/
theorem c83_constructor (at_ : AddressTable) (l : List (Asap × Addr)) :
    let ops := AssocTable.Op.associate ⟨0, some "individual address"⟩ [at_.ind] ::
      l.map fun p => AssocTable.Op.associate p.1 [p.2]
    ((AssocTable.init at_ l).1 = .ok () ↔ ∀ r ∈ (AssocTable.blank at_).callResults ops, r = .ok ()) ∧
    ((AssocTable.init at_ l).1 = .ok () → (AssocTable.init at_ l).2 = (AssocTable.blank at_).afterAll ops) := by
  have hloop : ∀ (l : List (Asap × Addr)) (t : AssocTable),
      (((Py.forEach l fun p => associate p.1 [p.2]) t).1 = .ok () ↔
        ∀ r ∈ t.callResults (l.map fun p => AssocTable.Op.associate p.1 [p.2]), r = .ok ()) ∧
      (((Py.forEach l fun p => associate p.1 [p.2]) t).1 = .ok () →
        ((Py.forEach l fun p => associate p.1 [p.2]) t).2 =
          t.afterAll (l.map fun p => AssocTable.Op.associate p.1 [p.2])) := by
    intro l
    induction l with
    | nil => intro t; simp [Py.forEach, Py.pure, callResults, AssocTable.afterAll]
    | cons p l ih =>
      intro t
      simp only [Py.forEach, Py.bind, List.map_cons, callResults, perform, AssocTable.afterAll, List.foldl_cons,
        List.mem_cons, forall_eq_or_imp]
      rcases hf : associate p.1 [p.2] t with ⟨r, t'⟩
      cases r with
      | error e => simp
      | ok u => exact ⟨by simpa using (ih t').1, (ih t').2⟩
  simp only [AssocTable.init, Py.bind, callResults, perform, AssocTable.afterAll, List.foldl_cons, List.mem_cons,
    forall_eq_or_imp]
  have e : (AssocTable.blank at_) = { at_ := at_, asapAddrs := [], tsapAsaps := [] } := rfl
  rw [e]
  rcases hf : associate ⟨0, some "individual address"⟩ [at_.ind] { at_ := at_, asapAddrs := [], tsapAsaps := [] }
    with ⟨r, t'⟩
  cases r with
  | error e => simp
  | ok u => exact ⟨by simpa using (hloop l t').1, (hloop l t').2⟩

/-- C83: `associate` succeeds exactly if there is room for the addresses not known yet; the table may be over its
maximal size if there are none. -/
theorem c83_associate (t : AssocTable) (hs : t.at_.gas.Pairwise fun a b => a.fs.toNat ≤ b.fs.toNat)
    (hb : t.rebuild = t) (asap : Asap) (as : List Addr) :
    (associate asap as t).1 = .ok () ↔
      newOnes t.at_.ind (t.at_.gas.map Addr.fs) as = [] ∨
        t.at_.gas.length + (newOnes t.at_.ind (t.at_.gas.map Addr.fs) as).length ≤ t.at_.maxSize := by
  rw [(agrees_associate (agrees_current hs hb) asap as).1]
  unfold TableState.associate
  simp only [currentState, List.length_map]
  split_ifs with h
  · simp [h]
  · simp [h]

theorem addressesOf_disassociate (d : Assoc) (v : Int) (x : BitVec 16) :
    addressesOf (Spec.disassociate d v [x]) v = (addressesOf d v).erase x := by
  induction d with
  | nil => rfl
  | cons p d ih =>
    obtain ⟨w, l⟩ := p
    simp only [Spec.disassociate, addressesOf]
    split_ifs with h
    · simp [addressesOf, h]
    · simp [addressesOf, h, ih]

theorem keys_disassociate (d : Assoc) (v : Int) (xs : List (BitVec 16)) :
    (Spec.disassociate d v xs).map (·.1) = d.map (·.1) := by
  induction d with
  | nil => rfl
  | cons p d ih =>
    obtain ⟨w, l⟩ := p
    simp only [Spec.disassociate]
    split_ifs with h
    · rfl
    · simp [ih]

theorem giveUp_iff (ind : BitVec 16) (v : Int) (xs : List (BitVec 16)) (s : TableState) :
    (s.giveUp ind v xs).1 = .ok () ↔ xs = [] ∨ v ∈ s.assoc.map (·.1) ∧
      ∀ x, xs.count x ≤ (addressesOf s.assoc v).count x ∧ (x = ind ∨ xs.count x ≤ s.known.count x) := by
  induction xs generalizing s with
  | nil => simp [TableState.giveUp]
  | cons x xs ih =>
    simp only [TableState.giveUp, reduceCtorEq, false_or]
    by_cases hu : s.Unknown ind x
    · rw [if_pos hu]
      simp only [reduceCtorEq, false_iff]
      rintro ⟨-, h⟩
      rcases (h x).2 with h | h
      · exact hu.2 h
      · rw [List.count_eq_zero.2 hu.1] at h
        simp at h
    · rw [if_neg hu]
      by_cases hk : v ∈ s.assoc.map (·.1)
      · rw [if_neg (not_not.2 hk)]
        by_cases hm : x ∈ addressesOf s.assoc v
        · rw [if_neg (not_not.2 hm), ih]
          simp only [keys_disassociate, hk, true_and, addressesOf_disassociate]
          have hpos : 0 < (addressesOf s.assoc v).count x := List.count_pos_iff.2 hm
          have hknown : x = ind ∨ 0 < s.known.count x := by
            unfold TableState.Unknown at hu
            by_cases hi : x = ind
            · exact Or.inl hi
            · right
              rw [List.count_pos_iff]
              by_contra hc
              exact hu ⟨hc, hi⟩
          constructor
          · rintro h y
            have hy : xs.count y ≤ ((addressesOf s.assoc v).erase x).count y ∧ (y = ind ∨
                xs.count y ≤ (if x = ind then s else { s with known := s.known.erase x }).known.count y) := by
              rcases h with rfl | h
              · simp
              · exact h y
            rw [List.count_erase] at hy
            rw [List.count_cons]
            by_cases hyx : y = x
            · subst hyx
              simp only [beq_self_eq_true, if_true] at hy ⊢
              refine ⟨by omega, ?_⟩
              by_cases hi : y = ind
              · exact Or.inl hi
              · right
                have h0 := hknown.resolve_left hi
                have h1 := hy.2.resolve_left hi
                rw [if_neg hi] at h1
                simp only [List.count_erase_self] at h1
                omega
            · have hxy : (x == y) = false := by simpa using fun e : x = y => hyx e.symm
              simp only [hxy, Bool.false_eq_true, if_false, Nat.sub_zero, Nat.add_zero] at hy ⊢
              refine ⟨hy.1, ?_⟩
              rcases hy.2 with h1 | h1
              · exact Or.inl h1
              · right
                split_ifs at h1
                · exact h1
                · simpa only [List.count_erase_of_ne hyx] using h1
          · intro h
            right
            intro y
            have hy := h y
            rw [List.count_cons] at hy
            rw [List.count_erase]
            by_cases hyx : y = x
            · subst hyx
              simp only [beq_self_eq_true, if_true] at hy ⊢
              refine ⟨by omega, ?_⟩
              by_cases hi : y = ind
              · exact Or.inl hi
              · right
                have h1 := hy.2.resolve_left hi
                rw [if_neg hi]
                simp only [List.count_erase_self]
                omega
            · have hxy : (x == y) = false := by simpa using fun e : x = y => hyx e.symm
              simp only [hxy, Bool.false_eq_true, if_false, Nat.sub_zero, Nat.add_zero] at hy ⊢
              refine ⟨hy.1, ?_⟩
              rcases hy.2 with h1 | h1
              · exact Or.inl h1
              · right
                split_ifs
                · exact h1
                · simpa only [List.count_erase_of_ne hyx] using h1
        · rw [if_pos hm]
          simp only [reduceCtorEq, false_iff]
          rintro ⟨-, h⟩
          have := (h x).1
          rw [List.count_eq_zero.2 hm] at this
          simp at this
      · rw [if_pos hk]
        simp [hk]

/-- C83: `disassociate` succeeds exactly if no address is given, or the ASAP exists and every address is given at most as
often as the ASAP has it and, unless it is the individual address, as the address table has it. -/
theorem c83_disassociate (t : AssocTable) (hs : t.at_.gas.Pairwise fun a b => a.fs.toNat ≤ b.fs.toNat)
    (hb : t.rebuild = t) (asap : Asap) (as : List Addr) :
    (disassociate asap as t).1 = .ok () ↔ as = [] ∨ asap.value ∈ t.absDict.map (·.1) ∧
      ∀ x, (as.map Addr.fs).count x ≤ (addressesOf t.absDict asap.value).count x ∧
        (x = t.at_.ind.fs ∨ (as.map Addr.fs).count x ≤ (t.at_.gas.map Addr.fs).count x) := by
  have h := (agrees_perform (agrees_current hs hb) (.disassociate asap as)).1
  have g := giveUp_iff t.at_.ind.fs asap.value (as.map Addr.fs) (currentState t)
  simp only [List.map_eq_nil_iff] at g
  simp only [perform, TableState.call, TableState.disassociate] at h
  rw [h]
  refine Iff.trans ?_ g
  rcases (currentState t).giveUp t.at_.ind.fs asap.value (as.map Addr.fs) with ⟨r, s'⟩
  cases r <;> simp

/-! ## What this says about C08 - C11 -/

theorem agrees_init (ia : Addr) (as : List Addr) (max : Nat) (ops : List AssocTable.Op) :
    Agrees ((AssocTable.blank (AddressTable.init ia as max)).afterAll ops) ia max
      ((TableState.start (as.map Addr.fs)).run ia max ops) :=
  (agrees_history (t := AssocTable.blank (AddressTable.init ia as max)) (s := .start (as.map Addr.fs))
    ⟨rfl, rfl, sort_sorted as, sort_fs_perm as, rfl, AddressTable.init ia as max, [], ⟨rfl, rfl, sort_sorted as⟩,
      sort_fs_perm as, rfl⟩ ops).2

/-- After a successful `associate` or `disassociate` the index is up to date, whatever happened before. -/
theorem rebuilt_of_ok {op : AssocTable.Op} {t : AssocTable} (hop : op.Proper t.at_.ind)
    (h : (perform op t).1 = .ok ()) : (perform op t).2.rebuild = (perform op t).2 := (perform_ok hop h).2.1

/-- C08, exactly, after any history of calls of all four kinds, raising or not, whose last call is a successful
`associate` or `disassociate`: for an address that is known (or the individual address) the ASAPs it is associated with;
for any other address the ASAPs of all the associated addresses that are unknown, whichever was asked for. -/
theorem c08_exact (ia : Addr) (as : List Addr) (max : Nat) (ops : List AssocTable.Op) (op : AssocTable.Op)
    (hop : op.Proper ia)
    (h : (perform op ((AssocTable.blank (AddressTable.init ia as max)).afterAll ops)).1 = .ok ()) (a : Addr) :
    let t := (AssocTable.blank (AddressTable.init ia as max)).afterAll (ops ++ [op])
    t.Routes a (if a.fs ∈ t.at_.gas.map Addr.fs ∨ a.fs = ia.fs then routed t.absDict a.fs
      else t.absDict.flatMap fun p =>
        List.replicate (p.2.countP fun y => y ∉ t.at_.gas.map Addr.fs ∧ y ≠ ia.fs) p.1) := by
  intro t
  have hg : Agrees t ia max _ := agrees_init ia as max (ops ++ [op])
  have ht : t = (perform op ((AssocTable.blank (AddressTable.init ia as max)).afterAll ops)).2 := by
    simp [t, AssocTable.afterAll]
  have hb : t.rebuild = t := by
    rw [ht]
    exact rebuilt_of_ok (by rw [(agrees_init ia as max ops).hind]; exact hop) h
  have := agrees_routes (agrees_current hg.sorted hb) a
  rw [hg.hind, currentState, listed_current] at this
  exact this

/-- C08 is false of every such table that has an associated address which is unknown: every unknown address, also one
associated with nothing, is listed with the ASAP of that address. -/
theorem c08_pooled_refuted (ia : Addr) (as : List Addr) (max : Nat) (ops : List AssocTable.Op) (op : AssocTable.Op)
    (hop : op.Proper ia)
    (h : (perform op ((AssocTable.blank (AddressTable.init ia as max)).afterAll ops)).1 = .ok ()) (a : Addr) :
    let t := (AssocTable.blank (AddressTable.init ia as max)).afterAll (ops ++ [op])
    ∀ p ∈ t.absDict, ∀ x ∈ p.2, x ∉ t.at_.gas.map Addr.fs → x ≠ ia.fs →
      a.fs ∉ t.at_.gas.map Addr.fs → a.fs ≠ ia.fs →
      ∃ r, t.getAsapsFromAddress a = .ok r ∧ p.1 ∈ r.map Asap.value := by
  intro t p hp x hx hx1 hx2 ha1 ha2
  have hr := c08_exact ia as max ops op hop h a
  simp only at hr
  rw [if_neg (not_or.2 ⟨ha1, ha2⟩)] at hr
  have hmem : p.1 ∈ t.absDict.flatMap fun p =>
      List.replicate (p.2.countP fun y => y ∉ t.at_.gas.map Addr.fs ∧ y ≠ ia.fs) p.1 := by
    rw [List.mem_flatMap]
    refine ⟨p, hp, List.mem_replicate.2 ⟨?_, rfl⟩⟩
    have : 0 < p.2.countP fun y => decide (y ∉ t.at_.gas.map Addr.fs ∧ y ≠ ia.fs) :=
      List.countP_pos_iff.2 ⟨x, hx, by simpa using ⟨by simpa using hx1, hx2⟩⟩
    omega
  unfold Routes at hr
  rw [if_neg (List.ne_nil_of_mem hmem)] at hr
  obtain ⟨r, h1, h2⟩ := hr
  exact ⟨r, h1, h2 ▸ hmem⟩

theorem addressesOf_other (d : Assoc) (v w : Int) (xs : List (BitVec 16)) (h : w ≠ v) :
    addressesOf (Spec.disassociate d v xs) w = addressesOf d w := by
  induction d with
  | nil => rfl
  | cons p d ih =>
    obtain ⟨u, l⟩ := p
    simp only [Spec.disassociate]
    split_ifs with h1
    · simp only [addressesOf]
      rw [if_neg (by rw [h1]; exact fun e => h e.symm), if_neg (by rw [h1]; exact fun e => h e.symm)]
    · simp only [addressesOf, ih]

theorem addressesOf_associate_other (d : Assoc) (v w : Int) (xs : List (BitVec 16)) (h : w ≠ v) :
    addressesOf (Spec.associate d v xs) w = addressesOf d w := by
  induction d with
  | nil => simp [Spec.associate, addressesOf, h.symm]
  | cons p d ih =>
    obtain ⟨u, l⟩ := p
    simp only [Spec.associate]
    split_ifs with h1
    · simp only [addressesOf]
      rw [if_neg (by rw [h1]; exact fun e => h e.symm), if_neg (by rw [h1]; exact fun e => h e.symm)]
    · simp only [addressesOf, ih]

theorem keys_associate (d : Assoc) (v w : Int) (xs : List (BitVec 16)) (h : w ∈ d.map (·.1)) :
    w ∈ (Spec.associate d v xs).map (·.1) := by
  induction d with
  | nil => simp at h
  | cons p d ih =>
    obtain ⟨u, l⟩ := p
    simp only [Spec.associate]
    split_ifs with h1
    · simpa using h
    · simp only [List.map_cons, List.mem_cons] at h ⊢
      exact h.imp id ih

theorem mem_keys {d : Assoc} {v : Int} {x : BitVec 16} (h : x ∈ addressesOf d v) : v ∈ d.map (·.1) := by
  induction d with
  | nil => simp [addressesOf] at h
  | cons p d ih =>
    obtain ⟨u, l⟩ := p
    simp only [addressesOf] at h
    simp only [List.map_cons, List.mem_cons]
    split_ifs at h with h1
    · exact Or.inl h1.symm
    · exact Or.inr (ih h)

theorem sent_type {ind : BitVec 16} {s : TableState} {v : Int} {x : BitVec 16} (hx : x ∈ addressesOf s.assoc v)
    (hu : s.Unknown ind x) : s.sent ind v = .error .typeError := by
  unfold TableState.sent
  rw [if_neg (not_not.2 (mem_keys hx)), if_pos ⟨x, hx, hu⟩]

theorem sent_known {ind : BitVec 16} {s : TableState} {v : Int} (hk : v ∈ s.assoc.map (·.1))
    (hall : ∀ x ∈ addressesOf s.assoc v, ¬ s.Unknown ind x) : s.sent ind v = .ok (addressesOf s.assoc v) := by
  unfold TableState.sent
  rw [if_neg (not_not.2 hk), if_neg fun ⟨x, h1, h2⟩ => hall x h1 h2]

theorem disassociate_single {ind : BitVec 16} {s : TableState} {v : Int} {x : BitVec 16}
    (hx : x ∈ addressesOf s.assoc v) (hi : x ≠ ind) (hk : x ∈ s.known) :
    s.disassociate ind v [x] = (.ok (), ⟨s.known.erase x, Spec.disassociate s.assoc v [x],
      s.known.erase x, Spec.disassociate s.assoc v [x]⟩) := by
  unfold TableState.disassociate TableState.giveUp
  rw [if_neg fun h : s.Unknown ind x => h.1 hk, if_neg (not_not.2 (mem_keys hx)), if_neg (not_not.2 hx), if_neg hi]
  rfl

theorem disassociate_unknown {ind : BitVec 16} {s : TableState} {v : Int} {x : BitVec 16} (h : s.Unknown ind x) :
    s.disassociate ind v [x] = (.error .valueError, s) := by
  unfold TableState.disassociate TableState.giveUp
  rw [if_pos h]

/-- C10 is false of every table in which two ASAPs share a group address (that the address table has once):
disassociating it from one of them succeeds, and afterwards the other one, although still associated, cannot send
(`TypeError`) and cannot be disassociated from it (`ValueError`). -/
theorem c10_shared_refuted (t : AssocTable) (hs : t.at_.gas.Pairwise fun a b => a.fs.toNat ≤ b.fs.toNat)
    (hb : t.rebuild = t) (one other : Asap) (a b : Addr) (hne : other.value ≠ one.value) (hab : b.fs = a.fs)
    (hind : a.fs ≠ t.at_.ind.fs) (h1 : a.fs ∈ addressesOf t.absDict one.value)
    (h2 : a.fs ∈ addressesOf t.absDict other.value) (hc : (t.at_.gas.map Addr.fs).count a.fs = 1) :
    let t' := (disassociate one [a] t).2
    (disassociate one [a] t).1 = .ok () ∧
      addressesOf t'.absDict other.value = addressesOf t.absDict other.value ∧
      t'.sendAddresses other = .error .typeError ∧ (disassociate other [b] t').1 = .error .valueError := by
  intro t'
  have hmem : a.fs ∈ t.at_.gas.map Addr.fs := List.count_pos_iff.1 (by omega)
  have hnot : a.fs ∉ (t.at_.gas.map Addr.fs).erase a.fs := by
    rw [← List.count_eq_zero, List.count_erase_self, hc]
  obtain ⟨g1, g2⟩ := agrees_perform (agrees_current hs hb) (.disassociate one [a])
  have e : (currentState t).call t.at_.ind t.at_.maxSize (.disassociate one [a]) = _ :=
    disassociate_single (s := currentState t) h1 hind hmem
  rw [e] at g1 g2
  change Agrees t' _ _ _ at g2
  have hadr : addressesOf (Spec.disassociate t.absDict one.value [a.fs]) other.value =
      addressesOf t.absDict other.value := addressesOf_other _ _ _ _ hne
  refine ⟨g1, ?_, ?_, ?_⟩
  · rw [g2.assoc]
    exact hadr
  · rw [agrees_sent g2 other]
    exact sent_type (x := a.fs) (by rw [← hadr] at h2; exact h2) ⟨hnot, hind⟩
  · obtain ⟨k1, -⟩ := agrees_perform g2 (.disassociate other [b])
    rw [show (disassociate other [b] t').1 = _ from k1]
    simp only [TableState.call, List.map_cons, List.map_nil, hab]
    rw [disassociate_unknown]
    exact ⟨hnot, hind⟩

/-- C09 is false of every table with an ASAP that cannot send because one of its addresses is unknown: associating that
address with another ASAP changes the first one's routing, it can send again. -/
theorem c09_shared_refuted (t : AssocTable) (hs : t.at_.gas.Pairwise fun a b => a.fs.toNat ≤ b.fs.toNat)
    (hb : t.rebuild = t) (one other : Asap) (a : Addr) (hne : other.value ≠ one.value) (ho : a.oid ≠ t.at_.ind.oid)
    (hroom : t.at_.gas.length < t.at_.maxSize) (hind : a.fs ≠ t.at_.ind.fs) (hgas : a.fs ∉ t.at_.gas.map Addr.fs)
    (h2 : a.fs ∈ addressesOf t.absDict other.value)
    (hall : ∀ x ∈ addressesOf t.absDict other.value, x = a.fs ∨ x = t.at_.ind.fs ∨ x ∈ t.at_.gas.map Addr.fs) :
    (associate one [a] t).1 = .ok () ∧ t.sendAddresses other = .error .typeError ∧
      (associate one [a] t).2.sendAddresses other = .ok (addressesOf t.absDict other.value) := by
  have hcur := agrees_current hs hb
  have hk := mem_keys h2
  have hnew : newOnes t.at_.ind (t.at_.gas.map Addr.fs) [a] = [a.fs] := by
    rw [newOnes_take _ _ _ _ hgas ho]
    rfl
  obtain ⟨g1, g2⟩ := agrees_associate hcur one [a]
  have e : (currentState t).associate t.at_.ind t.at_.maxSize one.value [a] =
      (.ok (), ⟨t.at_.gas.map Addr.fs ++ [a.fs], Spec.associate t.absDict one.value [a.fs],
        t.at_.gas.map Addr.fs ++ [a.fs], Spec.associate t.absDict one.value [a.fs]⟩) := by
    unfold TableState.associate
    simp only [currentState, hnew, List.length_map]
    rw [if_pos (Or.inr (by simp only [List.length_cons, List.length_nil]; omega))]
    rfl
  rw [e] at g1 g2
  have hadr : addressesOf (Spec.associate t.absDict one.value [a.fs]) other.value =
      addressesOf t.absDict other.value := addressesOf_associate_other _ _ _ _ hne
  refine ⟨g1, ?_, ?_⟩
  · rw [agrees_sent hcur other]
    exact sent_type (s := currentState t) h2 ⟨hgas, hind⟩
  · rw [agrees_sent g2 other, ← hadr]
    refine sent_known (keys_associate _ _ _ _ hk) ?_
    simp only [hadr]
    rintro x hx ⟨hx1, hx2⟩
    rcases hall x hx with h | h | h
    · exact hx1 (List.mem_append_right _ (by simp [h]))
    · exact hx2 h
    · exact hx1 (List.mem_append_left _ h)

/-- C11 is false whenever an `associate` that raises has added an address: every ASAP associated with a greater known
address only was listed for that address before the call and is not listed for it afterwards. -/
theorem c11_shift_refuted (t : AssocTable) (hs : t.at_.gas.Pairwise fun a b => a.fs.toNat ≤ b.fs.toNat)
    (hb : t.rebuild = t) (asap : Asap) (as : List Addr) (h : (associate asap as t).1 ≠ .ok ())
    (y : BitVec 16) (a : Addr) (hy : y ∉ t.at_.gas.map Addr.fs)
    (hy' : y ∈ (associate asap as t).2.at_.gas.map Addr.fs) (hlt : y.toNat < a.fs.toNat)
    (ha : a.fs ∈ t.at_.gas.map Addr.fs) (v : Int) (hv : v ∈ routed t.absDict a.fs)
    (honly : ∀ p ∈ t.absDict, p.1 = v → ∀ x ∈ p.2, x = a.fs) :
    (∃ r, t.getAsapsFromAddress a = .ok r ∧ v ∈ r.map Asap.value) ∧
      ∀ r, (associate asap as t).2.getAsapsFromAddress a = .ok r → v ∉ r.map Asap.value := by
  have hcur := agrees_current hs hb
  constructor
  · have hr := agrees_routes hcur a
    rw [currentState, listed_current, if_pos (Or.inl ha)] at hr
    unfold Routes at hr
    rw [if_neg (List.ne_nil_of_mem hv)] at hr
    obtain ⟨r, h1, h2⟩ := hr
    exact ⟨r, h1, h2 ▸ hv⟩
  · obtain ⟨g1, g2⟩ := agrees_associate hcur asap as
    by_cases hc : newOnes t.at_.ind (currentState t).known as = [] ∨
        (currentState t).known.length + (newOnes t.at_.ind (currentState t).known as).length ≤ t.at_.maxSize
    · unfold TableState.associate at g1
      rw [if_pos hc] at g1
      exact absurd g1 h
    · unfold TableState.associate at g2
      rw [if_neg hc] at g2
      have hr := agrees_routes g2 a
      have hk := g2.known
      simp only [currentState] at hr hk
      generalize List.take (t.at_.maxSize - (t.at_.gas.map Addr.fs).length)
        (newOnes t.at_.ind (t.at_.gas.map Addr.fs) as) = new at hr hk
      have hynew : y ∈ new := by
        have := hk.mem_iff.1 hy'
        rcases List.mem_append.1 this with h1 | h1
        · exact absurd h1 hy
        · exact h1
      have hnot : v ∉ (⟨t.at_.gas.map Addr.fs ++ new, t.absDict, t.at_.gas.map Addr.fs, t.absDict⟩ :
          TableState).listed t.at_.ind.fs a.fs := by
        unfold TableState.listed
        simp only [List.mem_flatMap, List.mem_replicate, not_exists, not_and]
        intro p hp hpos hpv
        apply hpos
        rw [List.countP_eq_zero]
        intro x hx
        have := honly p hp hpv.symm x hx
        subst this
        simp only [decide_eq_true_eq]
        unfold place
        rw [if_pos ha, if_pos (List.mem_append_left _ ha), List.countP_append]
        have : 0 < new.countP fun z => decide (z.toNat < a.fs.toNat) :=
          List.countP_pos_iff.2 ⟨y, hynew, by simpa using hlt⟩
        simp only [Option.some.injEq]
        omega
      intro r hr'
      unfold Routes at hr
      split_ifs at hr with hnil
      · rw [hr] at hr'
        simp at hr'
      · obtain ⟨r', h1, h2⟩ := hr
        rw [h1] at hr'
        simp only [Except.ok.injEq] at hr'
        subst hr'
        rw [h2]
        exact hnot

/-! ## Examples -/

/-- Two ASAPs share 0x0010; it is disassociated from one of them; an `associate` that does not fit (after adding
0x0005). -/
def exMachine : List AssocTable.Op :=
  [.associate ⟨1, none⟩ [⟨1, 0x0010⟩], .associate ⟨2, none⟩ [⟨2, 0x0010⟩, ⟨3, 0x0020⟩],
    .disassociate ⟨1, none⟩ [⟨1, 0x0010⟩], .associate ⟨3, none⟩ [⟨5, 0x0005⟩, ⟨6, 0x0006⟩]]

/-- 0x0020 moved to the second place, which was nobody's at the last successful call; 0x0005 is taken for 0x0020; any
unknown address, as 0x0777, is taken for 0x0010. -/
example :
    let t := (AssocTable.blank (AddressTable.init ⟨0, 0x1004⟩ [] 2)).afterAll exMachine
    (AssocTable.blank (AddressTable.init ⟨0, 0x1004⟩ [] 2)).callResults exMachine =
      [.ok (), .ok (), .ok (), .error .addressTable] ∧
    t.Routes ⟨9, 0x0020⟩ [] ∧ t.Routes ⟨9, 0x0005⟩ [2] ∧ t.Routes ⟨9, 0x0777⟩ [2] ∧
      t.sendAddresses ⟨1, none⟩ = .ok [] ∧ t.sendAddresses ⟨2, none⟩ = .error .typeError ∧
      t.sendAddresses ⟨3, none⟩ = .error .keyError := by
  have h0 := (c83_machine ⟨0, 0x1004⟩ [] 2 exMachine).1
  have h1 := (c83_machine ⟨0, 0x1004⟩ [] 2 exMachine).2.1
  have h2 := (c83_machine ⟨0, 0x1004⟩ [] 2 exMachine).2.2.1
  have hs : (TableState.start []).run ⟨0, 0x1004⟩ 2 exMachine =
      ⟨[0x0020, 0x0005], [(1, []), (2, [0x0010, 0x0020])], [0x0020], [(1, []), (2, [0x0010, 0x0020])]⟩ := by
    decide +kernel
  rw [List.map_nil, hs] at h1 h2
  have l1 := h1 ⟨9, 0x0020⟩
  have l2 := h1 ⟨9, 0x0005⟩
  have l3 := h1 ⟨9, 0x0777⟩
  rw [show TableState.listed _ _ _ = [] from by decide +kernel] at l1
  rw [show TableState.listed _ _ _ = [2] from by decide +kernel] at l2 l3
  intro t
  have s1 : t.sendAddresses ⟨1, none⟩ = .ok [] := (h2 ⟨1, none⟩).trans (sent_known (by decide) (by simp [addressesOf]))
  have s2 : t.sendAddresses ⟨2, none⟩ = .error .typeError :=
    (h2 ⟨2, none⟩).trans (sent_type (x := 0x0010) (by decide) ⟨by decide, by decide⟩)
  have s3 : t.sendAddresses ⟨3, none⟩ = .error .keyError := (h2 ⟨3, none⟩).trans (if_pos (by decide))
  have o : AssocTable.callResults _ _ = [.ok (), .ok (), .ok (), .error .addressTable] := h0.trans (by decide +kernel)
  exact ⟨o, l1, l2, l3, s1, s2, s3⟩

example : (AssocTable.init (AddressTable.init ⟨0, 0x1004⟩ [] 1) [(⟨1, none⟩, ⟨1, 0x0010⟩), (⟨2, none⟩, ⟨2, 0x0020⟩)]).1 ≠
    .ok () := by
  rw [Ne, (c83_constructor _ _).1]
  decide +kernel

/-- A table of size 3 with a shared address. -/
def exSharedTwo : AssocTable where
  at_ := ⟨3, ⟨0, 0x1004⟩, [⟨1, 0x0010⟩, ⟨3, 0x0020⟩]⟩
  asapAddrs := [(⟨0, none⟩, [⟨0, 0x1004⟩]), (⟨1, none⟩, [⟨1, 0x0010⟩]), (⟨2, none⟩, [⟨2, 0x0010⟩, ⟨3, 0x0020⟩])]
  tsapAsaps := [(some 0, [⟨0, none⟩]), (some 1, [⟨1, none⟩, ⟨2, none⟩]), (some 2, [⟨2, none⟩])]

example : (associate ⟨7, none⟩ [⟨5, 0x0005⟩, ⟨6, 0x0020⟩, ⟨7, 0x0005⟩] exSharedTwo).1 = .ok () :=
  (c83_associate exSharedTwo (by decide +kernel) (by decide +kernel) _ _).2 (by decide +kernel)
example : (associate ⟨7, none⟩ [⟨5, 0x0005⟩, ⟨6, 0x0006⟩] exSharedTwo).1 ≠ .ok () := fun h =>
  absurd ((c83_associate exSharedTwo (by decide +kernel) (by decide +kernel) _ _).1 h) (by decide +kernel)
example : (disassociate ⟨1, none⟩ [⟨1, 0x0010⟩, ⟨1, 0x0010⟩] exSharedTwo).1 ≠ .ok () := fun h => by
  rcases (c83_disassociate exSharedTwo (by decide +kernel) (by decide +kernel) _ _).1 h with h | h
  · simp at h
  · exact absurd (h.2 0x0010).1 (by decide +kernel)

example := c08_exact ⟨0, 0x1004⟩ [] 2 (exMachine.take 2) (.disassociate ⟨1, none⟩ [⟨1, 0x0010⟩]) trivial
  (by decide +kernel) ⟨9, 0x0777⟩
example := c08_pooled_refuted ⟨0, 0x1004⟩ [] 2 (exMachine.take 2) (.disassociate ⟨1, none⟩ [⟨1, 0x0010⟩]) trivial
  (by decide +kernel) ⟨9, 0x0777⟩ (2, [0x0010, 0x0020]) (by decide +kernel) 0x0010 (by decide +kernel) (by decide +kernel) (by decide +kernel) (by decide +kernel)
  (by decide +kernel)

example : (disassociate ⟨1, none⟩ [⟨1, 0x0010⟩] exSharedTwo).2.sendAddresses ⟨2, none⟩ = .error .typeError :=
  (c10_shared_refuted exSharedTwo (by decide +kernel) (by decide +kernel) ⟨1, none⟩ ⟨2, none⟩ ⟨1, 0x0010⟩ ⟨2, 0x0010⟩ (by decide +kernel) rfl
    (by decide +kernel) (by decide +kernel) (by decide +kernel) (by decide +kernel)).2.2.1

/-- The table after 0x0010 was disassociated from ASAP 1. -/
def exSharedOne : AssocTable where
  at_ := ⟨3, ⟨0, 0x1004⟩, [⟨3, 0x0020⟩]⟩
  asapAddrs := [(⟨0, none⟩, [⟨0, 0x1004⟩]), (⟨1, none⟩, []), (⟨2, none⟩, [⟨2, 0x0010⟩, ⟨3, 0x0020⟩])]
  tsapAsaps := [(some 0, [⟨0, none⟩]), (none, [⟨2, none⟩]), (some 1, [⟨2, none⟩])]

example : disassociate ⟨1, none⟩ [⟨1, 0x0010⟩] exSharedTwo = (.ok (), exSharedOne) := by decide +kernel

example : (associate ⟨5, none⟩ [⟨8, 0x0010⟩] exSharedOne).2.sendAddresses ⟨2, none⟩ = .ok [0x0010, 0x0020] :=
  (c09_shared_refuted exSharedOne (by decide +kernel) (by decide +kernel) ⟨5, none⟩ ⟨2, none⟩ ⟨8, 0x0010⟩ (by decide +kernel) (by decide +kernel) (by decide +kernel)
    (by decide +kernel) (by decide +kernel) (by decide +kernel) (by simp [exSharedOne, absDict, addressesOf])).2.2

example := c11_shift_refuted exSharedTwo (by decide +kernel) (by decide +kernel) ⟨7, none⟩ [⟨5, 0x0005⟩, ⟨6, 0x0006⟩] (by decide +kernel) 0x0005
  ⟨9, 0x0010⟩ (by decide +kernel) (by decide +kernel) (by decide +kernel) (by decide +kernel) 1 (by decide +kernel)
  (by simp [exSharedTwo, absDict])

end Knx
