import Verif.Lemmas.Assoc
import Verif.Props.AddressTables

/-! # C06 - C12: the association table -/

namespace Knx
open AssocTable AddressTable

/-! ## C06 capacity under associations -/

theorem perform_length (op : AssocTable.Op) (t : AssocTable) :
    (perform op t).2.at_.maxSize = t.at_.maxSize ∧
      (perform op t).2.at_.gas.length ≤ max t.at_.gas.length t.at_.maxSize := by
  cases op with
  | associate asap as =>
    simp only [perform]
    rw [associate_eq]
    obtain ⟨-, -, -, h4, -, -, h7, -⟩ := associateAdds_frame as t
    rcases hf : Py.forEach as associateAdd t with ⟨r, t'⟩
    rw [hf] at h4 h7
    cases r <;> exact ⟨h4, h7⟩
  | disassociate asap as =>
    simp only [perform]
    rw [disassociate_eq]
    obtain ⟨-, h2, h3, -⟩ := disassociates_frame asap as t
    rcases hf : Py.forEach as (disassociateOne asap) t with ⟨r, t'⟩
    rw [hf] at h2 h3
    cases r <;> exact ⟨h2, le_trans h3 (le_max_left _ _)⟩
  | addAddress a =>
    have := after_length t.at_ (.add a)
    simpa [perform, onAddressTable, AddressTable.after] using this
  | removeAddress a =>
    have := after_length t.at_ (.remove a)
    simpa [perform, onAddressTable, AddressTable.after] using this

/-- C06: no history of `associate`, `disassociate`, and of direct `add` and `remove` calls makes the address table grow
beyond the larger of its initial and its maximal size. -/
theorem c06_assoc_capacity (t : AssocTable) (ops : List AssocTable.Op) :
    (t.afterAll ops).at_.gas.length ≤ max t.at_.gas.length t.at_.maxSize := by
  induction ops generalizing t with
  | nil => exact le_max_left _ _
  | cons op ops ih =>
    have h := perform_length op t
    have := ih (perform op t).2
    simp only [AssocTable.afterAll, List.foldl_cons] at this ⊢
    rw [h.1] at this
    omega

/-! ## C07 no duplicates under associations -/

/-- C07 for histories of `associate` and `disassociate` calls, successful or not. Missing from the full claim: direct
calls of `AddressTable.add` (refuted by `c07_add_duplicates`). -/
theorem c07_assoc_partial (t : AssocTable) (h : (t.at_.gas.map Addr.fs).Nodup) (ops : List AssocTable.Op)
    (hops : ∀ op ∈ ops, (∃ asap as, op = .associate asap as) ∨ ∃ asap as, op = .disassociate asap as) :
    ((t.afterAll ops).at_.gas.map Addr.fs).Nodup := by
  induction ops generalizing t with
  | nil => exact h
  | cons op ops ih =>
    have hop := hops op List.mem_cons_self
    simp only [AssocTable.afterAll, List.foldl_cons]
    refine ih _ ?_ fun o ho => hops o (List.mem_cons_of_mem _ ho)
    rcases hop with ⟨asap, as, rfl⟩ | ⟨asap, as, rfl⟩
    · simp only [perform]
      rw [associate_eq]
      obtain ⟨-, -, -, -, -, -, -, h8⟩ := associateAdds_frame as t
      rcases hf : Py.forEach as associateAdd t with ⟨r, t'⟩
      rw [hf] at h8
      cases r <;> exact h8 h
    · simp only [perform]
      rw [disassociate_eq]
      obtain ⟨-, -, -, h4⟩ := disassociates_frame asap as t
      rcases hf : Py.forEach as (disassociateOne asap) t with ⟨r, t'⟩
      rw [hf] at h4
      cases r <;> exact h4 h

/-! ## C08 routing equals the associations -/

/-- The abstract state of a fresh association table: ASAP 0 has the individual address. -/
def Spec.fresh (ind : BitVec 16) : Spec.Assoc := [(0, [ind])]

/-- A fresh association table. -/
theorem init_fresh (at_ : AddressTable) :
    (AssocTable.init at_ []).1 = .ok () ∧ (AssocTable.init at_ []).2.at_ = at_ ∧
    (AssocTable.init at_ []).2.absDict = Spec.fresh at_.ind.fs ∧
    (AssocTable.init at_ []).2.rebuild = (AssocTable.init at_ []).2 := by
  have e : AssocTable.init at_ [] =
      (.ok (), (associateAppend ⟨0, some "individual address"⟩ [at_.ind]
        { at_ := at_, asapAddrs := [], tsapAsaps := [] }).rebuild) := by
    have h : associateAdd at_.ind { at_ := at_, asapAddrs := [], tsapAsaps := [] } =
        (.ok (), { at_ := at_, asapAddrs := [], tsapAsaps := [] }) := by
      simp [associateAdd, AssocTable.ind]
    simp [AssocTable.init, associate, Py.bind, Py.forEach, Py.modify, h, Py.pure]
  rw [e]
  exact ⟨rfl, rfl, rfl, rfl⟩

/-- The constructor with a list of associations is a fresh table followed by `associate` calls. -/
theorem init_history (at_ : AddressTable) (l : List (Asap × Addr)) (h : (AssocTable.init at_ l).1 = .ok ()) :
    let ops := l.map fun p => AssocTable.Op.associate p.1 [p.2]
    AllOk (AssocTable.init at_ []).2 ops ∧ (AssocTable.init at_ l).2 = (AssocTable.init at_ []).2.afterAll ops := by
  have e : AssocTable.init at_ l = (Py.forEach l fun p => associate p.1 [p.2]) (AssocTable.init at_ []).2 := by
    obtain ⟨h1, -⟩ := init_fresh at_
    unfold AssocTable.init at h1 ⊢
    simp only [Py.bind] at h1 ⊢
    rcases hf : associate ⟨0, some "individual address"⟩ [at_.ind]
      { at_ := at_, asapAddrs := [], tsapAsaps := [] } with ⟨r, t⟩
    rw [hf] at h1
    cases r with
    | error e => simp at h1
    | ok u => rfl
  rw [e] at h ⊢
  generalize (AssocTable.init at_ []).2 = t at h ⊢
  clear e
  induction l generalizing t with
  | nil => exact ⟨trivial, rfl⟩
  | cons p l ih =>
    simp only [Py.forEach, Py.bind] at h ⊢
    simp only [List.map_cons, AllOk, perform, AssocTable.afterAll, List.foldl_cons]
    rcases hf : associate p.1 [p.2] t with ⟨r, t'⟩
    rw [hf] at h
    cases r with
    | error e => simp at h
    | ok u =>
      have := ih t' h
      exact ⟨⟨rfl, this.1⟩, this.2⟩

theorem perform_ok {op : AssocTable.Op} {t : AssocTable} (hop : op.Proper t.at_.ind)
    (h : (perform op t).1 = .ok ()) :
    (perform op t).2.absDict = Spec.step t.absDict op ∧ (perform op t).2.rebuild = (perform op t).2 ∧
      (perform op t).2.at_.ind = t.at_.ind := by
  cases op with
  | associate asap as =>
    simp only [perform] at h ⊢
    obtain ⟨t1, h1, h2⟩ := associate_ok h
    obtain ⟨f1, -, f3, -⟩ := associateAdds_frame as t
    rw [h1] at f1 f3
    rw [h2]
    refine ⟨?_, rfl, f3⟩
    have : ((associateAppend asap as t1).rebuild).absDict = (associateAppend asap as t1).absDict := rfl
    simp only at f1
    rw [this, absDict_append, Spec.step]
    simp only [absDict, f1]
  | disassociate asap as =>
    simp only [perform] at h ⊢
    obtain ⟨t1, h1, h2⟩ := disassociate_ok h
    obtain ⟨f1, -⟩ := disassociates_frame asap as t
    rw [h1] at f1
    rw [h2]
    have : t1.rebuild.absDict = t1.absDict := rfl
    exact ⟨this.trans (disassociates_absDict h1), rfl, f1⟩
  | addAddress a => exact absurd hop id
  | removeAddress a => exact absurd hop id

theorem history_ok {ops : List AssocTable.Op} {t : AssocTable} (hb : t.rebuild = t)
    (hops : ∀ op ∈ ops, op.Proper t.at_.ind) (h : AllOk t ops) :
    (t.afterAll ops).absDict = Spec.follow t.absDict ops ∧ (t.afterAll ops).rebuild = t.afterAll ops ∧
      (t.afterAll ops).at_.ind = t.at_.ind := by
  induction ops generalizing t with
  | nil => exact ⟨rfl, hb, rfl⟩
  | cons op ops ih =>
    obtain ⟨h1, h2, h3⟩ := perform_ok (hops op List.mem_cons_self) h.1
    have := ih (t := (perform op t).2) h2 (fun o ho => by rw [h3]; exact hops o (List.mem_cons_of_mem _ ho)) h.2
    rw [h1, h3] at this
    exact this

theorem routes_of_objs {t : AssocTable} {a : Addr}
    (h : t.getAsapsFromAddress a =
      if routedObjs t.asapAddrs a.fs = [] then .error .keyError else .ok (routedObjs t.asapAddrs a.fs)) :
    t.Routes a (Spec.routed t.absDict a.fs) := by
  unfold Routes
  rw [h, ← routedObjs_values]
  by_cases hr : routedObjs t.asapAddrs a.fs = []
  · simp [hr]
  · simp [hr]

/-- C08 for addresses that the address table (still) knows, after any history of successful calls: exactly the
associated ASAPs are listed, as often as associated and in creation order. Missing from the full claim: addresses that
fell out of the address table because they were disassociated from another ASAP (`c08_shared_refuted`), and histories
with calls that raise (see C11). -/
theorem c08_partial (at_ : AddressTable) (ops : List AssocTable.Op) (hops : ∀ op ∈ ops, op.Proper at_.ind)
    (h : AllOk (AssocTable.init at_ []).2 ops) (a : Addr)
    (ha : ((AssocTable.init at_ []).2.afterAll ops).at_.getTsap a ≠ none) :
    ((AssocTable.init at_ []).2.afterAll ops).Routes a
      (Spec.routed (Spec.follow (Spec.fresh at_.ind.fs) ops) a.fs) := by
  obtain ⟨-, hat, hd, hb⟩ := init_fresh at_
  obtain ⟨h1, h2, h3⟩ := history_ok hb (by rw [hat]; exact hops) h
  rw [← hd, ← h1]
  apply routes_of_objs
  have := route_rebuilt ha
  rw [h2] at this
  exact this

/-! Every associated address is known, as long as no shared address is disassociated. -/

/-- Every associated address is the individual address or in the address table. -/
def Known (t : AssocTable) : Prop :=
  ∀ x, 0 < Spec.total t.absDict x → x ∈ t.at_.gas.map Addr.fs ∨ x = t.at_.ind.fs

theorem total_pos (d : Spec.Assoc) (x : BitVec 16) : 0 < Spec.total d x ↔ ∃ p ∈ d, x ∈ p.2 := by
  unfold Spec.total
  induction d with
  | nil => simp
  | cons p d ih =>
    simp only [List.map_cons, List.sum_cons, Nat.add_pos_iff_pos_or_pos, ih, List.count_pos_iff, List.mem_cons,
      exists_eq_or_imp]

theorem total_associate (d : Spec.Assoc) (v : Int) (as : List (BitVec 16)) (x : BitVec 16) :
    Spec.total (Spec.associate d v as) x = Spec.total d x + as.count x := by
  unfold Spec.total
  induction d with
  | nil => simp [Spec.associate]
  | cons p d ih =>
    obtain ⟨w, l⟩ := p
    simp only [Spec.associate]
    split_ifs
    · simp only [List.map_cons, List.sum_cons, List.count_append]
      omega
    · simp only [List.map_cons, List.sum_cons, ih]
      omega

theorem total_disassociate_one (d : Spec.Assoc) (v : Int) (a x : BitVec 16) (h : a ∈ Spec.addressesOf d v) :
    Spec.total (Spec.disassociate d v [a]) x + (if x = a then 1 else 0) = Spec.total d x := by
  unfold Spec.total
  induction d with
  | nil => simp [Spec.addressesOf] at h
  | cons p d ih =>
    obtain ⟨w, l⟩ := p
    simp only [Spec.disassociate, Spec.addressesOf] at h ⊢
    split_ifs at h ⊢ with hw hx
    · subst hx
      have := List.count_pos_iff.2 h
      simp only [List.foldl_cons, List.foldl_nil, List.map_cons, List.sum_cons, List.count_erase_self]
      omega
    · simp only [List.foldl_cons, List.foldl_nil, List.map_cons, List.sum_cons, List.count_erase_of_ne hx]
      omega
    · have := ih h
      simp only [List.map_cons, List.sum_cons]
      simp_all
      omega
    · have := ih h
      simp only [List.map_cons, List.sum_cons]
      simp_all

theorem known_iff {t : AssocTable} : Known t ↔ ∀ p ∈ t.asapAddrs, ∀ x ∈ p.2, t.at_.getTsap x ≠ none := by
  unfold Known
  constructor
  · intro h p hp x hx hn
    rw [getTsap_none] at hn
    have := h x.fs ((total_pos _ _).2 ⟨(p.1.value, p.2.map Addr.fs), List.mem_map.2 ⟨p, hp, rfl⟩,
      List.mem_map.2 ⟨x, hx, rfl⟩⟩)
    rcases this with h | h
    · exact hn.1 h
    · exact hn.2 h
  · intro h x hx
    obtain ⟨q, hq, hxq⟩ := (total_pos _ _).1 hx
    obtain ⟨p, hp, rfl⟩ := List.mem_map.1 hq
    obtain ⟨y, hy, rfl⟩ := List.mem_map.1 hxq
    have := h p hp y hy
    rw [Ne, getTsap_none] at this
    by_cases hm : y.fs ∈ t.at_.gas.map Addr.fs
    · exact Or.inl hm
    · right
      by_contra hi
      exact this ⟨hm, hi⟩

theorem known_associate {t : AssocTable} {asap : Asap} {as : List Addr}
    (has : ∀ a ∈ as, a.oid = t.at_.ind.oid → a.fs = t.at_.ind.fs) (hk : Known t)
    (h : (associate asap as t).1 = .ok ()) : Known (associate asap as t).2 := by
  obtain ⟨t1, h1, h2⟩ := associate_ok h
  obtain ⟨f1, -, f3, -, f5, -⟩ := associateAdds_frame as t
  have fok := associateAdds_ok as t (by rw [h1])
  rw [h1] at f1 f3 f5 fok
  simp only at f1 f3 f5 fok
  rw [h2]
  intro x hx
  have e1 : ((associateAppend asap as t1).rebuild).absDict = Spec.associate t.absDict asap.value (as.map Addr.fs) := by
    have : ((associateAppend asap as t1).rebuild).absDict = (associateAppend asap as t1).absDict := rfl
    rw [this, absDict_append]
    simp only [absDict, f1]
  simp only at hx ⊢
  rw [e1, total_associate] at hx
  show x ∈ t1.at_.gas.map Addr.fs ∨ x = t1.at_.ind.fs
  rw [f3]
  by_cases h0 : 0 < Spec.total t.absDict x
  · rcases hk x h0 with h | h
    · exact Or.inl (f5 x h)
    · exact Or.inr h
  · have : 0 < (as.map Addr.fs).count x := by omega
    obtain ⟨a, ha, rfl⟩ := List.mem_map.1 (List.count_pos_iff.1 this)
    rcases fok a ha with h | h
    · exact Or.inl h
    · exact Or.inr (has a ha h)

theorem disassociateOne_abs {asap : Asap} {a : Addr} {t t' : AssocTable}
    (h : disassociateOne asap a t = (.ok (), t')) :
    a.fs ∈ Spec.addressesOf t.absDict asap.value ∧
      t'.absDict = Spec.disassociate t.absDict asap.value [a.fs] := by
  obtain ⟨-, -, -, -, -, hok⟩ := disassociateOne_cases asap a t
  rw [h] at hok
  obtain ⟨-, l, l', hd, hl, he⟩ := hok rfl
  simp only at he
  constructor
  · rw [← absDict_get, hd]
    exact (removeFirst_some hl).2.1
  · unfold absDict
    rw [he]
    exact specDisassociate_one _ asap a l l' hd hl

theorem known_disassociates {asap : Asap} {as : List Addr} {t t' : AssocTable}
    (hx : ∀ a ∈ as, a.fs = t.at_.ind.fs ∨ Spec.total t.absDict a.fs ≤ 1) (hk : Known t)
    (h : Py.forEach as (disassociateOne asap) t = (.ok (), t')) : Known t' := by
  induction as generalizing t with
  | nil =>
    simp only [Py.forEach, Py.pure, Prod.mk.injEq, true_and] at h
    exact h ▸ hk
  | cons a as ih =>
    obtain ⟨t1, h1, h2⟩ := forEach_cons_ok h
    obtain ⟨hmem, habs⟩ := disassociateOne_abs h1
    obtain ⟨g1, -, -, -, -, hok⟩ := disassociateOne_cases asap a t
    rw [h1] at g1 hok
    obtain ⟨hat, -⟩ := hok rfl
    simp only at g1 hat
    have htot := fun x => total_disassociate_one t.absDict asap.value a.fs x hmem
    refine ih (t := t1) ?_ ?_ h2
    · intro b hb
      rcases hx b (List.mem_cons_of_mem _ hb) with h | h
      · exact Or.inl (g1 ▸ h)
      · right
        have := htot b.fs
        rw [habs]
        omega
    · intro x hpos
      rw [habs] at hpos
      have ht := htot x
      have hold := hk x (by omega)
      rw [g1]
      rcases hold with hold | hold
      · rcases hat with ⟨-, he⟩ | ⟨hne, -, hp⟩
        · rw [he]; exact Or.inl hold
        · left
          have hxa : x ≠ a.fs := by
            rintro rfl
            rcases hx a List.mem_cons_self with h | h
            · exact hne h
            · simp only [if_true] at ht
              omega
          exact hp.mem_iff.2 ((List.mem_erase_of_ne hxa).2 hold)
      · exact Or.inr hold

theorem known_history {ops : List AssocTable.Op} {t : AssocTable} (hk : Known t)
    (hops : ∀ op ∈ ops, op.Proper t.at_.ind) (h : AllOk t ops)
    (hx : Spec.Exclusive t.at_.ind.fs t.absDict ops) : Known (t.afterAll ops) := by
  induction ops generalizing t with
  | nil => exact hk
  | cons op ops ih =>
    obtain ⟨h1, h2, h3⟩ := perform_ok (hops op List.mem_cons_self) h.1
    have hops' : ∀ o ∈ ops, o.Proper (perform op t).2.at_.ind := fun o ho => by
      rw [h3]; exact hops o (List.mem_cons_of_mem _ ho)
    simp only [AssocTable.afterAll, List.foldl_cons]
    have hproper := hops op List.mem_cons_self
    cases op with
    | associate asap as =>
      refine ih (known_associate hproper hk h.1) hops' h.2 ?_
      rw [h3, h1]
      exact hx
    | disassociate asap as =>
      obtain ⟨t1, e1, e2⟩ := disassociate_ok h.1
      refine ih ?_ hops' h.2 ?_
      · have : Known t1 := known_disassociates hx.1 hk e1
        simp only [perform]
        rw [e2]
        exact this
      · rw [h3, h1]
        exact hx.2
    | addAddress a => exact absurd hproper id
    | removeAddress a => exact absurd hproper id

theorem known_init (at_ : AddressTable) : Known (AssocTable.init at_ []).2 := by
  obtain ⟨-, hat, hd, -⟩ := init_fresh at_
  intro x hx
  rw [hd] at hx
  rw [hat]
  obtain ⟨p, hp, hxp⟩ := (total_pos _ _).1 hx
  simp only [Spec.fresh, List.mem_singleton] at hp
  subst hp
  exact Or.inr (by simpa using hxp)

/-- Routing of every address when every associated address is known and the index is up to date. -/
theorem routes_known {t : AssocTable} (hk : Known t) (hb : t.rebuild = t) (a : Addr) :
    t.getAsapsFromAddress a =
      if routedObjs t.asapAddrs a.fs = [] then .error .keyError else .ok (routedObjs t.asapAddrs a.fs) := by
  by_cases ha : t.at_.getTsap a = none
  · obtain ⟨h1, h2⟩ := route_unknown ha (known_iff.1 hk)
    rw [hb] at h1
    rw [h2, h1]
    rfl
  · have := route_rebuilt ha
    rw [hb] at this
    exact this

/-- C08 for every address, after any history of successful calls in which no call disassociates a group address that is
associated more than once. -/
theorem c08_exclusive_partial (at_ : AddressTable) (ops : List AssocTable.Op)
    (hops : ∀ op ∈ ops, op.Proper at_.ind) (h : AllOk (AssocTable.init at_ []).2 ops)
    (hx : Spec.Exclusive at_.ind.fs (Spec.fresh at_.ind.fs) ops) (a : Addr) :
    ((AssocTable.init at_ []).2.afterAll ops).Routes a
      (Spec.routed (Spec.follow (Spec.fresh at_.ind.fs) ops) a.fs) := by
  obtain ⟨-, hat, hd, hb⟩ := init_fresh at_
  obtain ⟨h1, h2, h3⟩ := history_ok hb (by rw [hat]; exact hops) h
  have hk := known_history (known_init at_) (by rw [hat]; exact hops) h (by rw [hat, hd]; exact hx)
  rw [← hd, ← h1]
  exact routes_of_objs (routes_known hk h2 a)

/-! A concrete history: two ASAPs sharing an address, a third address disassociated, TSAPs reshuffled. -/

def exAt : AddressTable := AddressTable.init ⟨0, 0x1004⟩ [] 10

def exOps : List AssocTable.Op :=
  [.associate ⟨7, none⟩ [⟨1, 0x0E89⟩, ⟨2, 0x0E03⟩], .associate ⟨3, none⟩ [⟨3, 0x0E89⟩],
   .disassociate ⟨7, some "x"⟩ [⟨4, 0x0E03⟩], .associate ⟨7, none⟩ [⟨5, 0x0001⟩]]

instance (ind : Addr) (op : AssocTable.Op) : Decidable (op.Proper ind) := by
  cases op <;> simp only [AssocTable.Op.Proper] <;> infer_instance

instance decAllOk : (t : AssocTable) → (ops : List AssocTable.Op) → Decidable (AllOk t ops)
  | _, [] => isTrue trivial
  | t, op :: ops =>
    have := decAllOk (perform op t).2 ops
    inferInstanceAs (Decidable (_ ∧ _))

instance decExclusive (ind : BitVec 16) : (d : Spec.Assoc) → (ops : List AssocTable.Op) →
    Decidable (Spec.Exclusive ind d ops)
  | _, [] => isTrue trivial
  | d, .disassociate asap as :: ops =>
    have := decExclusive ind (Spec.step d (.disassociate asap as)) ops
    inferInstanceAs (Decidable (_ ∧ _))
  | d, .associate asap as :: ops => decExclusive ind (Spec.step d (.associate asap as)) ops
  | d, .addAddress a :: ops => decExclusive ind (Spec.step d (.addAddress a)) ops
  | d, .removeAddress a :: ops => decExclusive ind (Spec.step d (.removeAddress a)) ops

example : ((AssocTable.init exAt []).2.afterAll exOps).Routes ⟨9, 0x0E89⟩ [7, 3] :=
  c08_exclusive_partial exAt exOps (by decide) (by decide) (by decide) ⟨9, 0x0E89⟩
example : ((AssocTable.init exAt []).2.afterAll exOps).Routes ⟨9, 0x0E03⟩ [] :=
  c08_exclusive_partial exAt exOps (by decide) (by decide) (by decide) ⟨9, 0x0E03⟩
example : ((AssocTable.init exAt []).2.afterAll exOps).Routes ⟨9, 0x1004⟩ [0] :=
  c08_partial exAt exOps (by decide) (by decide) ⟨9, 0x1004⟩ (by decide)

/-- A history of successful calls that disassociates shared addresses. -/
def exShared : List AssocTable.Op :=
  [.associate ⟨1, none⟩ [⟨1, 0x0E89⟩, ⟨2, 0x0E88⟩], .associate ⟨2, none⟩ [⟨3, 0x0E89⟩], .associate ⟨3, none⟩ [⟨4, 0x0E88⟩],
   .disassociate ⟨1, none⟩ [⟨1, 0x0E89⟩, ⟨2, 0x0E88⟩]]

/-- C08 is false in general: after shared addresses were disassociated from one of their ASAPs, telegrams to one of
them are listed for the ASAP of the other, and even an address that was never associated has ASAPs. All calls
succeed. -/
theorem c08_shared_refuted :
    ∃ (at_ : AddressTable) (ops : List AssocTable.Op),
      (∀ op ∈ ops, op.Proper at_.ind) ∧ AllOk (AssocTable.init at_ []).2 ops ∧
      (∃ a : Addr, Spec.routed (Spec.follow (Spec.fresh at_.ind.fs) ops) a.fs = [2] ∧
        ((AssocTable.init at_ []).2.afterAll ops).getAsapsFromAddress a = .ok [⟨2, none⟩, ⟨3, none⟩]) ∧
      ∃ a : Addr, Spec.routed (Spec.follow (Spec.fresh at_.ind.fs) ops) a.fs = [] ∧
        ((AssocTable.init at_ []).2.afterAll ops).getAsapsFromAddress a = .ok [⟨2, none⟩, ⟨3, none⟩] :=
  ⟨exAt, exShared, by decide, by decide, ⟨⟨7, 0x0E89⟩, by decide, by decide⟩, ⟨8, 0x0777⟩, by decide, by decide⟩

/-! ## C09 associate changes only what it says -/

theorem routedObjs_associate (d : List (Asap × List Addr)) (asap : Asap) (as : List Addr) (x : BitVec 16)
    (hx : x ∉ as.map Addr.fs) :
    routedObjs (dictSet Asap.eq d asap ((dictGet Asap.eq d asap).getD [] ++ as)) x = routedObjs d x := by
  have h0 : (as.map Addr.fs).count x = 0 := List.count_eq_zero.2 hx
  unfold routedObjs
  induction d with
  | nil => simp [dictSet, dictGet, h0]
  | cons p d ih =>
    obtain ⟨k, l⟩ := p
    simp only [dictSet, dictGet]
    by_cases h : Asap.eq k asap = true
    · simp only [h, if_true, Option.getD_some, List.flatMap_cons, List.map_append, List.count_append, h0, Nat.add_zero]
    · simp only [h, Bool.false_eq_true, if_false, List.flatMap_cons, ih]

/-- C09: in a table whose associated addresses are all known and whose index is up to date (every table reached by
successful calls that disassociate no shared address, `c09_reachable`), a successful `associate` appends exactly
the given addresses to the ASAP, leaves the addresses every other ASAP sends to unchanged, and leaves the ASAPs
listed for every other address unchanged. Missing from the full claim: tables reached otherwise, for which it is false
(`c09_refuted`). -/
theorem c09_associate_partial (t : AssocTable) (hk : Known t) (hb : t.rebuild = t) (asap : Asap) (as : List Addr)
    (has : ∀ a ∈ as, a.oid = t.at_.ind.oid → a.fs = t.at_.ind.fs) (h : (associate asap as t).1 = .ok ()) :
    let t' := (associate asap as t).2
    (∃ old, (t.sendAddresses asap = .ok old ∨ t.sendAddresses asap = .error .keyError ∧ old = []) ∧
      t'.sendAddresses asap = .ok (old ++ as.map Addr.fs)) ∧
    (∀ other : Asap, other.value ≠ asap.value → t'.sendAddresses other = t.sendAddresses other) ∧
    (∀ a : Addr, a.fs ∉ as.map Addr.fs → t'.getAsapsFromAddress a = t.getAsapsFromAddress a) ∧
    (∀ a : Addr, t'.Routes a (Spec.routed (Spec.associate t.absDict asap.value (as.map Addr.fs)) a.fs)) := by
  have hk' := known_associate has hk h
  obtain ⟨habs, hb', -⟩ := perform_ok (op := .associate asap as) (t := t) has h
  obtain ⟨t1, h1, h2⟩ := associate_ok h
  obtain ⟨f1, -⟩ := associateAdds_frame as t
  rw [h1] at f1
  simp only at f1
  have hd : (associate asap as t).2.asapAddrs =
      dictSet Asap.eq t.asapAddrs asap ((dictGet Asap.eq t.asapAddrs asap).getD [] ++ as) := by
    rw [h2]
    show (associateAppend asap as t1).asapAddrs = _
    simp only [associateAppend, f1]
  intro t'
  have hsend : ∀ (u : AssocTable), Known u → ∀ (s : Asap) (l : List Addr),
      dictGet Asap.eq u.asapAddrs s = some l → u.sendAddresses s = .ok (l.map Addr.fs) := by
    intro u hu s l hl
    refine send_resolved hl fun a ha => ?_
    obtain ⟨k', hk', -⟩ := dictGet_mem asap_keyEq hl
    exact known_iff.1 hu _ hk' a ha
  have hnew : dictGet Asap.eq t'.asapAddrs asap = some ((dictGet Asap.eq t.asapAddrs asap).getD [] ++ as) := by
    show dictGet Asap.eq (associate asap as t).2.asapAddrs asap = _
    rw [hd]
    exact dictGet_dictSet_same asap_keyEq _ rfl _
  refine ⟨?_, ?_, ?_, ?_⟩
  · have hs := hsend t' hk' asap _ hnew
    cases hg : dictGet Asap.eq t.asapAddrs asap with
    | none =>
      refine ⟨[], Or.inr ⟨send_unknown hg, rfl⟩, ?_⟩
      rw [hs, hg]
      rfl
    | some l =>
      refine ⟨l.map Addr.fs, Or.inl (hsend t hk asap l hg), ?_⟩
      rw [hs, hg]
      simp
  · intro other hne
    have hother : dictGet Asap.eq t'.asapAddrs other = dictGet Asap.eq t.asapAddrs other := by
      show dictGet Asap.eq (associate asap as t).2.asapAddrs other = _
      rw [hd]
      exact dictGet_dictSet_other asap_keyEq _ (Ne.symm hne) _
    cases hg : dictGet Asap.eq t.asapAddrs other with
    | none => rw [send_unknown hg, send_unknown (hother.trans hg)]
    | some l => rw [hsend t hk other l hg, hsend t' hk' other l (hother.trans hg)]
  · intro a ha
    have e := routedObjs_associate t.asapAddrs asap as a.fs ha
    rw [← hd] at e
    have r1 := routes_known hk' hb' a
    have r2 := routes_known hk hb a
    rw [e] at r1
    exact r1.trans r2.symm
  · intro a
    have := routes_of_objs (routes_known hk' hb' a)
    simp only [perform] at habs
    rw [habs] at this
    exact this

/-- The hypotheses of C09 and C10 hold in every table reached by successful calls that disassociate no shared group
address. -/
theorem c09_reachable (at_ : AddressTable) (ops : List AssocTable.Op)
    (hops : ∀ op ∈ ops, op.Proper at_.ind) (h : AllOk (AssocTable.init at_ []).2 ops)
    (hx : Spec.Exclusive at_.ind.fs (Spec.fresh at_.ind.fs) ops) :
    let t := (AssocTable.init at_ []).2.afterAll ops
    Known t ∧ t.rebuild = t := by
  obtain ⟨-, hat, hd, hb⟩ := init_fresh at_
  obtain ⟨h1, h2, h3⟩ := history_ok hb (by rw [hat]; exact hops) h
  exact ⟨known_history (known_init at_) (by rw [hat]; exact hops) h (by rw [hat, hd]; exact hx), h2⟩

def exReached : AssocTable := (AssocTable.init exAt []).2.afterAll exOps

theorem exReached_ok : Known exReached ∧ exReached.rebuild = exReached :=
  c09_reachable exAt exOps (by decide) (by decide) (by decide)

/-- C09 for histories: after any successful calls that disassociate no shared group address, a successful `associate`
appends exactly the given addresses to the ASAP, leaves the addresses every other ASAP sends to unchanged, leaves the
ASAPs listed for every other address unchanged, and lists for every address what the history says. Missing from the full
claim: other histories (`c09_refuted`). -/
theorem c09_history_partial (at_ : AddressTable) (ops : List AssocTable.Op)
    (hops : ∀ op ∈ ops, op.Proper at_.ind) (h : AllOk (AssocTable.init at_ []).2 ops)
    (hx : Spec.Exclusive at_.ind.fs (Spec.fresh at_.ind.fs) ops) (asap : Asap) (as : List Addr)
    (has : ∀ a ∈ as, a.oid = at_.ind.oid → a.fs = at_.ind.fs) :
    let t := (AssocTable.init at_ []).2.afterAll ops
    let t' := (associate asap as t).2
    (associate asap as t).1 = .ok () →
    (∃ old, (t.sendAddresses asap = .ok old ∨ t.sendAddresses asap = .error .keyError ∧ old = []) ∧
      t'.sendAddresses asap = .ok (old ++ as.map Addr.fs)) ∧
    (∀ other : Asap, other.value ≠ asap.value → t'.sendAddresses other = t.sendAddresses other) ∧
    (∀ a : Addr, a.fs ∉ as.map Addr.fs → t'.getAsapsFromAddress a = t.getAsapsFromAddress a) ∧
    (∀ a : Addr, t'.Routes a (Spec.routed
      (Spec.associate (Spec.follow (Spec.fresh at_.ind.fs) ops) asap.value (as.map Addr.fs)) a.fs)) := by
  intro t t' hok
  obtain ⟨-, hat, hd, hb⟩ := init_fresh at_
  obtain ⟨h1, -, h3⟩ := history_ok hb (by rw [hat]; exact hops) h
  obtain ⟨hk, hr⟩ := c09_reachable at_ ops hops h hx
  have := c09_associate_partial t hk hr asap as (by rw [h3, hat]; exact has) hok
  rw [show t.absDict = _ from h1, hd] at this
  exact this

example : (associate ⟨3, none⟩ [⟨8, 0x0100⟩] exReached).2.sendAddresses ⟨7, none⟩ =
    exReached.sendAddresses ⟨7, none⟩ :=
  (c09_associate_partial exReached exReached_ok.1 exReached_ok.2 ⟨3, none⟩ [⟨8, 0x0100⟩] (by decide) (by decide)).2.1
    ⟨7, none⟩ (by decide)
example := c09_history_partial exAt exOps (by decide) (by decide) (by decide) ⟨3, none⟩ [⟨8, 0x0100⟩] (by decide) (by decide)
example : exReached.sendAddresses ⟨7, none⟩ = .ok [0x0E89, 0x0001] := by decide

/-- C09 is false of tables reached by disassociating a shared address: associating the address again repairs the address
of another ASAP, which could not be sent to before, and changes what is listed for an address nobody associated. -/
theorem c09_refuted : ∃ (at_ : AddressTable) (ops : List AssocTable.Op) (asap other : Asap) (as : List Addr) (a : Addr),
    (∀ op ∈ ops, op.Proper at_.ind) ∧ AllOk (AssocTable.init at_ []).2 ops ∧ other.value ≠ asap.value ∧
    a.fs ∉ as.map Addr.fs ∧
    let t := (AssocTable.init at_ []).2.afterAll ops
    (associate asap as t).1 = .ok () ∧
    (associate asap as t).2.sendAddresses other ≠ t.sendAddresses other ∧
    (associate asap as t).2.getAsapsFromAddress a ≠ t.getAsapsFromAddress a :=
  ⟨exAt, [.associate ⟨1, none⟩ [⟨1, 0x0E89⟩], .associate ⟨2, none⟩ [⟨2, 0x0E89⟩], .disassociate ⟨1, none⟩ [⟨1, 0x0E89⟩]],
    ⟨3, none⟩, ⟨2, none⟩, [⟨3, 0x0E89⟩], ⟨4, 0x0001⟩, by decide, by decide, by decide, by decide, by decide, by decide,
    by decide⟩

/-! ## C10 disassociate is isolated -/

theorem spec_disassociate_other (d : Spec.Assoc) (v w : Int) (as : List (BitVec 16)) (h : w ≠ v) :
    Spec.addressesOf (Spec.disassociate d v as) w = Spec.addressesOf d w := by
  induction d with
  | nil => rfl
  | cons p d ih =>
    obtain ⟨u, l⟩ := p
    simp only [Spec.disassociate, Spec.addressesOf]
    split_ifs with h1 h2
    · exact absurd (h2.symm.trans h1) h
    · simp [Spec.addressesOf, h2]
    · simp [Spec.addressesOf, *]
    · simp [Spec.addressesOf, *]

/-- Routing to the ASAPs other than the disassociated one is untouched. -/
theorem routed_disassociate_others (d : Spec.Assoc) (v : Int) (as : List (BitVec 16)) (x : BitVec 16) :
    (Spec.routed (Spec.disassociate d v as) x).filter (· ≠ v) = (Spec.routed d x).filter (· ≠ v) := by
  unfold Spec.routed
  induction d with
  | nil => rfl
  | cons p d ih =>
    obtain ⟨u, l⟩ := p
    simp only [Spec.disassociate]
    split_ifs with h1
    · subst h1
      simp [List.flatMap_cons, List.filter_append, List.filter_replicate]
    · simp only [List.flatMap_cons, List.filter_append, ih]

/-- Routing of the addresses not named is untouched. -/
theorem routed_disassociate_unnamed (d : Spec.Assoc) (v : Int) (as : List (BitVec 16)) (x : BitVec 16)
    (hx : x ∉ as) : Spec.routed (Spec.disassociate d v as) x = Spec.routed d x := by
  have hc : ∀ l : List (BitVec 16), (as.foldl List.erase l).count x = l.count x := by
    induction as with
    | nil => intro l; rfl
    | cons a as ih =>
      intro l
      have hxa : x ≠ a := fun e => hx (e ▸ List.mem_cons_self)
      rw [List.foldl_cons, ih (fun h => hx (List.mem_cons_of_mem _ h)), List.count_erase_of_ne hxa]
  unfold Spec.routed
  induction d with
  | nil => rfl
  | cons p d ih =>
    obtain ⟨u, l⟩ := p
    simp only [Spec.disassociate]
    split_ifs with h1
    · simp only [List.flatMap_cons, hc]
    · simp only [List.flatMap_cons, ih]

/-- C10, provided the disassociated group addresses are associated only once: the addresses are removed from that ASAP,
every other ASAP can still send to exactly its addresses, and stays listed for exactly the same addresses. Missing from
the full claim: shared addresses (`c10_refuted`). -/
theorem c10_partial (t : AssocTable) (hk : Known t) (hb : t.rebuild = t) (asap : Asap) (as : List Addr)
    (hx : ∀ a ∈ as, a.fs = t.at_.ind.fs ∨ Spec.total t.absDict a.fs ≤ 1)
    (h : (disassociate asap as t).1 = .ok ()) :
    let t' := (disassociate asap as t).2
    (∃ old, t.sendAddresses asap = .ok old ∧ t'.sendAddresses asap = .ok ((as.map Addr.fs).foldl List.erase old) ∨ as = []) ∧
    (∀ other : Asap, other.value ≠ asap.value → t'.sendAddresses other = t.sendAddresses other) ∧
    (∀ a : Addr, ∃ before after, t.Routes a before ∧ t'.Routes a after ∧
      after.filter (· ≠ asap.value) = before.filter (· ≠ asap.value) ∧
      (a.fs ∉ as.map Addr.fs → after = before)) := by
  obtain ⟨habs, hb', -⟩ := perform_ok (op := .disassociate asap as) (t := t) trivial h
  simp only [perform, Spec.step] at habs hb'
  obtain ⟨t1, h1, h2⟩ := disassociate_ok h
  have hk' : Known (disassociate asap as t).2 := by
    have : Known t1 := known_disassociates hx hk h1
    rw [h2]
    exact this
  have hdict : ∀ (as : List Addr) (t t1 : AssocTable),
      Py.forEach as (disassociateOne asap) t = (.ok (), t1) →
      (as = [] ∨ ∃ l l', dictGet Asap.eq t.asapAddrs asap = some l ∧ dictGet Asap.eq t1.asapAddrs asap = some l' ∧
        l'.map Addr.fs = (as.map Addr.fs).foldl List.erase (l.map Addr.fs)) ∧
      ∀ other : Asap, other.value ≠ asap.value →
        dictGet Asap.eq t1.asapAddrs other = dictGet Asap.eq t.asapAddrs other := by
    intro as
    induction as with
    | nil =>
      intro t t1 h
      simp only [Py.forEach, Py.pure, Prod.mk.injEq, true_and] at h
      subst h
      exact ⟨Or.inl rfl, fun _ _ => rfl⟩
    | cons a as ih =>
      intro t t2 h
      obtain ⟨t1, g1, g2⟩ := forEach_cons_ok h
      obtain ⟨-, -, -, -, -, hok⟩ := disassociateOne_cases asap a t
      rw [g1] at hok
      obtain ⟨-, l, l', hd, hl, he⟩ := hok rfl
      simp only at he
      have hs : dictGet Asap.eq t1.asapAddrs asap = some l' := by
        rw [he]; exact dictGet_dictSet_same asap_keyEq _ rfl _
      obtain ⟨i1, i2⟩ := ih t1 t2 g2
      refine ⟨Or.inr ?_, fun other hne => ?_⟩
      · rcases i1 with rfl | ⟨m, m', hm, hm', hmm⟩
        · simp only [Py.forEach, Py.pure, Prod.mk.injEq, true_and] at g2
          subst g2
          exact ⟨l, l', hd, hs, by simp [(removeFirst_some hl).1]⟩
        · rw [hs] at hm
          simp only [Option.some.injEq] at hm
          subst hm
          refine ⟨l, m', hd, hm', ?_⟩
          rw [hmm, (removeFirst_some hl).1]
          rfl
      · rw [i2 other hne, he]
        exact dictGet_dictSet_other asap_keyEq _ (Ne.symm hne) _
  obtain ⟨d1, d2⟩ := hdict as t t1 h1
  have et : (disassociate asap as t).2.asapAddrs = t1.asapAddrs := by rw [h2]; rfl
  rw [← et] at d1 d2
  intro t'
  have hsend : ∀ (u : AssocTable), Known u → ∀ (s : Asap) (l : List Addr),
      dictGet Asap.eq u.asapAddrs s = some l → u.sendAddresses s = .ok (l.map Addr.fs) := by
    intro u hu s l hl
    refine send_resolved hl fun a ha => ?_
    obtain ⟨k', hk', -⟩ := dictGet_mem asap_keyEq hl
    exact known_iff.1 hu _ hk' a ha
  refine ⟨?_, ?_, ?_⟩
  · rcases d1 with h | ⟨l, l', e1, e2, e3⟩
    · exact ⟨[], Or.inr h⟩
    · exact ⟨l.map Addr.fs, Or.inl ⟨hsend t hk asap l e1, by rw [← e3]; exact hsend t' hk' asap l' e2⟩⟩
  · intro other hne
    have hother := d2 other hne
    cases hg : dictGet Asap.eq t.asapAddrs other with
    | none => rw [send_unknown hg, send_unknown (hother.trans hg)]
    | some l => rw [hsend t hk other l hg, hsend t' hk' other l (hother.trans hg)]
  · intro a
    have r1 := routes_of_objs (routes_known hk hb a)
    have r2 := routes_of_objs (routes_known hk' hb' a)
    rw [habs] at r2
    exact ⟨_, _, r1, r2, routed_disassociate_others _ _ _ _, routed_disassociate_unnamed _ _ _ _⟩

example : (disassociate ⟨7, none⟩ [⟨8, 0x0001⟩] exReached).2.sendAddresses ⟨3, none⟩ =
    exReached.sendAddresses ⟨3, none⟩ :=
  (c10_partial exReached exReached_ok.1 exReached_ok.2 ⟨7, none⟩ [⟨8, 0x0001⟩] (by decide) (by decide)).2.1
    ⟨3, none⟩ (by decide)

/-- C10 for histories: after any successful calls that disassociate no shared group address, a successful `disassociate` of
addresses that the history leaves associated at most once removes them from that ASAP and from nothing else. Missing from
the full claim: shared addresses (`c10_refuted`). -/
theorem c10_history_partial (at_ : AddressTable) (ops : List AssocTable.Op)
    (hops : ∀ op ∈ ops, op.Proper at_.ind) (h : AllOk (AssocTable.init at_ []).2 ops)
    (hx : Spec.Exclusive at_.ind.fs (Spec.fresh at_.ind.fs) ops) (asap : Asap) (as : List Addr)
    (has : ∀ a ∈ as, a.fs = at_.ind.fs ∨ Spec.total (Spec.follow (Spec.fresh at_.ind.fs) ops) a.fs ≤ 1) :
    let t := (AssocTable.init at_ []).2.afterAll ops
    let t' := (disassociate asap as t).2
    (disassociate asap as t).1 = .ok () →
    (∃ old, t.sendAddresses asap = .ok old ∧ t'.sendAddresses asap = .ok ((as.map Addr.fs).foldl List.erase old) ∨ as = []) ∧
    (∀ other : Asap, other.value ≠ asap.value → t'.sendAddresses other = t.sendAddresses other) ∧
    (∀ a : Addr, ∃ before after, t.Routes a before ∧ t'.Routes a after ∧
      after.filter (· ≠ asap.value) = before.filter (· ≠ asap.value) ∧
      (a.fs ∉ as.map Addr.fs → after = before)) := by
  intro t t' hok
  obtain ⟨-, hat, hd, hb⟩ := init_fresh at_
  obtain ⟨h1, -, h3⟩ := history_ok hb (by rw [hat]; exact hops) h
  obtain ⟨hk, hr⟩ := c09_reachable at_ ops hops h hx
  refine c10_partial t hk hr asap as ?_ hok
  rw [show t.absDict = _ from h1, hd, h3, hat]
  exact has

example := c10_history_partial exAt exOps (by decide) (by decide) (by decide) ⟨7, none⟩ [⟨8, 0x0001⟩] (by decide) (by decide)

/-- C10 is false for shared addresses: another ASAP that has the address too cannot send any more (`TypeError`), is not
reached through the address's TSAP any more, and disassociating the address from it raises `ValueError`. -/
theorem c10_refuted :
    ∃ (t : AssocTable) (asap other : Asap) (a : Addr), Known t ∧ t.rebuild = t ∧ other.value ≠ asap.value ∧
      (disassociate asap [a] t).1 = .ok () ∧
      t.sendAddresses other = .ok [a.fs] ∧
      (disassociate asap [a] t).2.sendAddresses other = .error .typeError ∧
      (∃ n, t.at_.getTsap a = some n) ∧ (disassociate asap [a] t).2.at_.getTsap a = none ∧
      (disassociate other [a] (disassociate asap [a] t).2).1 = .error .valueError :=
  ⟨exReached, ⟨7, none⟩, ⟨3, none⟩, ⟨8, 0x0E89⟩, exReached_ok.1, exReached_ok.2, by decide, by decide, by decide,
    by decide, ⟨2, by decide⟩, by decide, by decide⟩

/-! ## C11 A failed associate changes nothing -/

/-- C11 is false: an `associate` that raises has added the addresses that fitted without renumbering the index, so that
telegrams for one ASAP are listed for another one afterwards. -/
theorem c11_refuted :
    ∃ (t : AssocTable) (asap : Asap) (as : List Addr) (a : Addr), Known t ∧ t.rebuild = t ∧
      (associate asap as t).1 = .error .addressTable ∧
      t.getAsapsFromAddress a = .ok [⟨1, none⟩] ∧
      (associate asap as t).2.getAsapsFromAddress a = .ok [⟨2, none⟩] :=
  let at_ := AddressTable.init ⟨0, 0x1004⟩ [] 3
  let ops : List AssocTable.Op := [.associate ⟨1, none⟩ [⟨1, 0x0E10⟩], .associate ⟨2, none⟩ [⟨2, 0x0E20⟩]]
  ⟨(AssocTable.init at_ []).2.afterAll ops, ⟨3, none⟩, [⟨3, 0x0001⟩, ⟨4, 0x0002⟩], ⟨9, 0x0E10⟩,
    (c09_reachable at_ ops (by decide) (by decide) (by decide)).1,
    (c09_reachable at_ ops (by decide) (by decide) (by decide)).2, by decide, by decide, by decide⟩

/-- Inserting larger addresses keeps the position of an address. -/
theorem index_sort_append {l : List Addr} {b a : Addr} (hs : l.Pairwise fun x y => x.fs.toNat ≤ y.fs.toNat)
    (hb : a.fs.toNat < b.fs.toNat) (ha : a.fs ∈ l.map Addr.fs) :
    index (sort (l ++ [b])) a = index l a := by
  have hsorted : ∀ m : List Addr, (m.Pairwise fun x y => x.fs.toNat ≤ y.fs.toNat) → sort m = m := by
    intro m hm
    induction m with
    | nil => rfl
    | cons x m ih =>
      rw [List.pairwise_cons] at hm
      simp only [sort, ih hm.2]
      cases m with
      | nil => rfl
      | cons y m => simp [AddressTable.insert, hm.1 y List.mem_cons_self]
  have hpre : ∀ (m : List Addr) , (m.Pairwise fun x y => x.fs.toNat ≤ y.fs.toNat) → a.fs ∈ m.map Addr.fs →
      index (sort (m ++ [b])) a = index m a := by
    intro m hm hmem
    induction m with
    | nil => simp at hmem
    | cons x m ih =>
      rw [List.pairwise_cons] at hm
      have hxb : x.fs.toNat ≤ b.fs.toNat ∨ x.fs ≠ a.fs := by
        by_cases e : x.fs = a.fs
        · left; rw [e]; omega
        · exact Or.inr e
      have hxle : x.fs.toNat ≤ a.fs.toNat := by
        simp only [List.map_cons, List.mem_cons, List.mem_map] at hmem
        rcases hmem with h | ⟨y, hy, h⟩
        · rw [h]
        · rw [← h]; exact hm.1 y hy
      -- x is not larger than every other element, so it stays in front
      have hfront : sort (x :: (m ++ [b])) = x :: sort (m ++ [b]) := by
        have hall : ∀ y ∈ sort (m ++ [b]), x.fs.toNat ≤ y.fs.toNat := by
          intro y hy
          rcases List.mem_append.1 ((sort_perm _).mem_iff.1 hy) with h | h
          · exact hm.1 y h
          · rw [List.mem_singleton.1 h]; omega
        show AddressTable.insert x (sort (m ++ [b])) = _
        cases hq : sort (m ++ [b]) with
        | nil => rfl
        | cons y q =>
          have := hall y (by rw [hq]; exact List.mem_cons_self)
          simp [AddressTable.insert, this]
      rw [List.cons_append, hfront]
      by_cases e : x.fs = a.fs
      · have : x.eq a = true := by simp [Addr.eq, e]
        simp [index, this]
      · have hx : ¬ x.eq a = true := by simpa [Addr.eq] using e
        simp only [index, hx, Bool.false_eq_true, if_false]
        have hmem' : a.fs ∈ m.map Addr.fs := by
          simp only [List.map_cons, List.mem_cons] at hmem
          rcases hmem with h | h
          · exact absurd h.symm e
          · exact h
        rw [ih hm.2 hmem']
  exact hpre l hs ha

theorem associateAdds_tsap (as : List Addr) (t : AssocTable)
    (hs : t.at_.gas.Pairwise fun x y => x.fs.toNat ≤ y.fs.toNat) (a : Addr)
    (ha : a.fs ∈ t.at_.gas.map Addr.fs)
    (hlow : ∀ b ∈ as, b.fs ∉ t.at_.gas.map Addr.fs → a.fs.toNat < b.fs.toNat) :
    (Py.forEach as associateAdd t).2.at_.getTsap a = t.at_.getTsap a := by
  induction as generalizing t with
  | nil => rfl
  | cons b as ih =>
    simp only [Py.forEach, Py.bind]
    rcases associateAdd_cases b t with ⟨e, -⟩ | ⟨hm, -, hl, e⟩ | ⟨-, -, -, e⟩
    · rw [e]
      exact ih t hs ha fun c hc => hlow c (List.mem_cons_of_mem _ hc)
    · rw [e]
      simp only
      have hidx := index_sort_append (b := b) hs (hlow b List.mem_cons_self hm) ha
      have hp := sort_fs_perm (t.at_.gas ++ [b])
      rw [ih]
      · unfold AddressTable.getTsap
        simp only [hidx]
      · exact sort_sorted _
      · refine hp.mem_iff.2 ?_
        rw [List.map_append]
        exact List.mem_append_left _ ha
      · intro c hc hcm
        refine hlow c (List.mem_cons_of_mem _ hc) fun hin => hcm ?_
        refine hp.mem_iff.2 ?_
        rw [List.map_append]
        exact List.mem_append_left _ hin
    · rw [e]

/-- C11, what does hold when `associate` raises: the exception is `AddressTableException`, the addresses of every ASAP
and the index itself are what they were, and the ASAPs listed for a group address are unchanged if no address that
was to be newly added sorts below it. Missing from the full claim: group addresses above a newly added one
(`c11_refuted`). -/
theorem c11_partial (t : AssocTable) (hs : t.at_.gas.Pairwise fun x y => x.fs.toNat ≤ y.fs.toNat)
    (asap : Asap) (as : List Addr) (e : Err) (h : (associate asap as t).1 = .error e) :
    e = .addressTable ∧ (associate asap as t).2.asapAddrs = t.asapAddrs ∧
    (associate asap as t).2.tsapAsaps = t.tsapAsaps ∧
    (∀ a : Addr, a.fs ∈ t.at_.gas.map Addr.fs →
      (∀ b ∈ as, b.fs ∉ t.at_.gas.map Addr.fs → a.fs.toNat < b.fs.toNat) →
      (associate asap as t).2.getAsapsFromAddress a = t.getAsapsFromAddress a) := by
  obtain ⟨h1, h2⟩ := associate_error h
  obtain ⟨f1, f2, -⟩ := associateAdds_frame as t
  have ft := associateAdds_tsap as t hs
  rw [h1] at f1 f2 ft
  refine ⟨h2, f1, f2, fun a ha hlow => ?_⟩
  unfold getAsapsFromAddress getAsaps
  rw [ft a ha hlow, f2]

/-- C11, when the table was full before the call: nothing at all changes. -/
theorem c11_full_partial (t : AssocTable) (hfull : t.at_.maxSize ≤ t.at_.gas.length) (asap : Asap) (as : List Addr)
    (e : Err) (h : (associate asap as t).1 = .error e) : (associate asap as t).2 = t := by
  obtain ⟨h1, -⟩ := associate_error h
  have key : ∀ as : List Addr, (Py.forEach as associateAdd t).2 = t := by
    intro as
    induction as with
    | nil => rfl
    | cons b as ih =>
      simp only [Py.forEach, Py.bind]
      rcases associateAdd_cases b t with ⟨e, -⟩ | ⟨-, -, hl, -⟩ | ⟨-, -, -, e⟩
      · rw [e]; exact ih
      · omega
      · rw [e]
  have := key as
  rw [h1] at this
  exact this

example :
    let t := (AssocTable.init (AddressTable.init ⟨0, 0x1004⟩ [] 2) []).2.afterAll [.associate ⟨1, none⟩ [⟨1, 0x0E10⟩]]
    (associate ⟨3, none⟩ [⟨3, 0x0F01⟩, ⟨4, 0x0F02⟩] t).2.getAsapsFromAddress ⟨9, 0x0E10⟩ =
      t.getAsapsFromAddress ⟨9, 0x0E10⟩ :=
  (c11_partial _ (by decide) ⟨3, none⟩ [⟨3, 0x0F01⟩, ⟨4, 0x0F02⟩] .addressTable (by decide)).2.2.2 ⟨9, 0x0E10⟩
    (by decide) (by decide)

/-! ## C12 Proposed free ASAP is free -/

/-- C12 is false: with ASAP values registered in the order 0, 2, 1 the proposed value 1 is used already. -/
theorem c12_refuted :
    ∃ (at_ : AddressTable) (ops : List AssocTable.Op), AllOk (AssocTable.init at_ []).2 ops ∧
      let t := (AssocTable.init at_ []).2.afterAll ops
      ((t.getFreeAsapValue : Nat) : Int) ∈ t.asaps.map Asap.value :=
  ⟨exAt, [.associate ⟨2, none⟩ [⟨1, 1⟩], .associate ⟨1, none⟩ [⟨2, 2⟩]], by decide, by decide⟩

theorem freeFrom_spec (l : List Asap) (e : Nat) :
    ∃ n, n ≤ l.length ∧ freeFrom e l = e + n ∧
      (∀ i, (hi : i < l.length) → i < n → l[i].value = ((e + i : Nat) : Int)) ∧
      (∀ hn : n < l.length, l[n].value ≠ ((e + n : Nat) : Int)) := by
  induction l generalizing e with
  | nil => exact ⟨0, le_refl _, rfl, fun i hi => absurd hi (by simp), fun h => absurd h (by simp)⟩
  | cons a l ih =>
    unfold freeFrom
    by_cases h : (e : Int) = a.value
    · obtain ⟨n, h1, h2, h3, h4⟩ := ih (e + 1)
      refine ⟨n + 1, by simpa using h1, by simp [h, h2]; omega, ?_, ?_⟩
      · intro i hi hin
        cases i with
        | zero => simpa using h.symm
        | succ i =>
          have := h3 i (by simpa using hi) (by omega)
          simp only [List.getElem_cons_succ, this]
          omega
      · intro hn
        have := h4 (by simpa using hn)
        simp only [List.getElem_cons_succ]
        intro e'
        apply this
        rw [e']
        omega
    · refine ⟨0, by omega, by simp [h], fun i _ hi => by omega, fun _ => ?_⟩
      simpa using fun e' => h e'.symm

/-- C12, exactly: the value proposed is the length of the longest prefix 0, 1, 2, ... of the registration order, and it is
used precisely if it was registered later than that. -/
theorem c12_partial (t : AssocTable) :
    (∀ i (hi : i < t.asaps.length), i < t.getFreeAsapValue → t.asaps[i].value = i) ∧
    (∀ hn : t.getFreeAsapValue < t.asaps.length, t.asaps[t.getFreeAsapValue].value ≠ t.getFreeAsapValue) ∧
    ((t.getFreeAsapValue : Int) ∈ t.asaps.map Asap.value ↔
      ∃ i, ∃ hi : i < t.asaps.length, t.getFreeAsapValue < i ∧ t.asaps[i].value = t.getFreeAsapValue) := by
  obtain ⟨n, h1, h2, h3, h4⟩ := freeFrom_spec t.asaps 0
  have hf : t.getFreeAsapValue = n := by
    unfold getFreeAsapValue
    omega
  rw [hf]
  have h3' : ∀ i (hi : i < t.asaps.length), i < n → t.asaps[i].value = i := by
    intro i hi hin
    simpa using h3 i hi hin
  have h4' : ∀ hn : n < t.asaps.length, t.asaps[n].value ≠ n := by
    intro hn
    simpa using h4 hn
  refine ⟨h3', h4', ?_⟩
  constructor
  · intro h
    obtain ⟨s, hs, hv⟩ := List.mem_map.1 h
    obtain ⟨i, hi, rfl⟩ := List.mem_iff_getElem.1 hs
    refine ⟨i, hi, ?_, hv⟩
    rcases lt_trichotomy i n with h | h | h
    · have := h3' i hi h
      omega
    · subst h
      exact absurd hv (h4' hi)
    · exact h
  · rintro ⟨i, hi, -, hv⟩
    rw [← hv]
    exact List.mem_map.2 ⟨_, List.getElem_mem hi, rfl⟩

/-- C12 for ASAP values registered in ascending order: the proposed value is free. -/
theorem c12_ascending_partial (t : AssocTable)
    (h : (t.asaps.map Asap.value).Pairwise (· < ·)) (h0 : ∀ v ∈ t.asaps.map Asap.value, 0 ≤ v) :
    (t.getFreeAsapValue : Int) ∉ t.asaps.map Asap.value := by
  obtain ⟨h1, h2, h3⟩ := c12_partial t
  rw [h3]
  rintro ⟨i, hi, hlt, hv⟩
  have hn : t.getFreeAsapValue < t.asaps.length := lt_trans hlt hi
  rw [List.pairwise_iff_getElem] at h
  -- the values before the proposed one are 0, 1, ..., so the one at its position is larger
  have hge : ∀ k (hk : k < t.asaps.length), (k : Int) ≤ t.asaps[k].value := by
    intro k
    induction k with
    | zero => intro hk; exact h0 _ (List.mem_map.2 ⟨_, List.getElem_mem hk, rfl⟩)
    | succ k ih =>
      intro hk
      have := h k (k + 1) (by simp; omega) (by simpa using hk) (Nat.lt_succ_self k)
      simp only [List.getElem_map] at this
      have := ih (by omega)
      push_cast
      omega
  have a1 := hge _ hn
  have a2 := h _ i (by simpa using hn) (by simpa using hi) hlt
  simp only [List.getElem_map] at a2
  omega

example :
    let t := (AssocTable.init exAt []).2.afterAll [.associate ⟨1, none⟩ [⟨1, 1⟩], .associate ⟨5, none⟩ [⟨2, 2⟩]]
    t.getFreeAsapValue = 2 ∧ (t.getFreeAsapValue : Int) ∉ t.asaps.map Asap.value :=
  ⟨by decide, c12_ascending_partial _ (by decide) (by decide)⟩

end Knx
