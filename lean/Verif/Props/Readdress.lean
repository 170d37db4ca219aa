import Verif.Spec.Readdress
import Verif.Lemmas.Assoc
import Verif.Lemmas.Requests
import Verif.Props.Decoder

/-! # C68: changing the own individual address -/

namespace Knx
namespace Readdress
open AssocTable AddressTable Spec

/-- The key of ASAP 0 (association_table.py:126). -/
def zero : Asap := ⟨0, some "individual address"⟩

/-- An address that differs from all of these as a value. -/
def Apart (O : List Addr) (a : Addr) : Prop := ∀ o ∈ O, a.fs ≠ o.fs

theorem Apart.of_foreign {O : List Addr} {a : Addr} (h : Foreign O a) : Apart O a := fun o ho => (h o ho).1

/-- The tables of two devices that differ in nothing but their own addresses, which are among `O`; their ASAP 0 has the
addresses `z` and `z'`. -/
structure Alike (O : List Addr) (z z' : Addr) (t t' : AssocTable) : Prop where
  size : t.at_.maxSize = t'.at_.maxSize
  gas : t.at_.gas = t'.at_.gas
  own : t.at_.ind ∈ O
  own' : t'.at_.ind ∈ O
  apart : ∀ g ∈ t.at_.gas, Apart O g
  dict : ∃ l, t.asapAddrs = (zero, [z]) :: l ∧ t'.asapAddrs = (zero, [z']) :: l ∧ ∀ p ∈ l, ∀ a ∈ p.2, Apart O a
  index : ∀ n, dictGet (· == ·) t.tsapAsaps (some (n + 1)) = dictGet (· == ·) t'.tsapAsaps (some (n + 1))

section
variable {O : List Addr} {z z' : Addr} {t t' : AssocTable}

theorem not_eq {o a : Addr} (ha : Apart O a) (ho : o ∈ O) : a.eq o = false := by
  have := ha o ho
  simpa [Addr.eq] using this

theorem getTsap_apart {u u' : AddressTable} (hg : u.gas = u'.gas) (h1 : u.ind ∈ O) (h2 : u'.ind ∈ O) {a : Addr}
    (ha : Apart O a) : u.getTsap a = u'.getTsap a := by
  unfold AddressTable.getTsap
  rw [hg, not_eq ha h1, not_eq ha h2]

theorem getTsap_own {u : AddressTable} (hg : ∀ g ∈ u.gas, Apart O g) {o : Addr} (ho : o ∈ O) (n : Nat) :
    u.getTsap o ≠ some (n + 1) := by
  intro h
  unfold AddressTable.getTsap at h
  have : AddressTable.index u.gas o = none := by
    rw [index_none]
    intro hm
    obtain ⟨g, hg', he⟩ := List.mem_map.1 hm
    exact hg g hg' o ho he
  rw [this] at h
  simp only at h
  split_ifs at h
  · simp at h

theorem rebuild_alike (hz : z ∈ O) (hz' : z' ∈ O) (size : t.at_.maxSize = t'.at_.maxSize)
    (gas : t.at_.gas = t'.at_.gas) (own : t.at_.ind ∈ O) (own' : t'.at_.ind ∈ O)
    (apart : ∀ g ∈ t.at_.gas, Apart O g)
    (dict : ∃ l, t.asapAddrs = (zero, [z]) :: l ∧ t'.asapAddrs = (zero, [z']) :: l ∧ ∀ p ∈ l, ∀ a ∈ p.2, Apart O a) :
    Alike O z z' t.rebuild t'.rebuild := by
  refine ⟨size, gas, own, own', apart, dict, fun n => ?_⟩
  obtain ⟨l, e1, e2, hl⟩ := dict
  rw [rebuild_pairs, rebuild_pairs, dictGet_fold, dictGet_fold, e1, e2]
  have hp : pairs t.at_ l = pairs t'.at_ l := by
    unfold pairs
    apply List.flatMap_congr
    intro p hp
    apply List.map_congr_left
    intro a ha
    rw [getTsap_apart gas own own' (hl p hp a ha)]
  have hs : ∀ (u : AddressTable) (w : Addr), u.getTsap w ≠ some (n + 1) →
      (pairs u ((zero, [w]) :: l)).filter (fun q => q.1 == some (n + 1)) =
        (pairs u l).filter (fun q => q.1 == some (n + 1)) := by
    intro u w hw
    have : (u.getTsap w == some (n + 1)) = false := by simpa using hw
    simp only [pairs, List.flatMap_cons, List.map_cons, List.map_nil, List.singleton_append, List.filter_cons, this,
      Bool.false_eq_true, if_false]
  rw [hs _ _ (getTsap_own apart hz n), hs _ _ (getTsap_own (gas ▸ apart) hz' n), hp]

/-! ## The calls -/

/-- The same outcome, and tables alike afterwards. -/
def Both (O : List Addr) (z z' : Addr) (x y : Except Err Unit × AssocTable) : Prop :=
  x.1 = y.1 ∧ Alike O z z' x.2 y.2

theorem forEach_both {α : Type} {l : List α} {f : α → Py AssocTable Unit}
    (h : ∀ a ∈ l, ∀ t t', Alike O z z' t t' → Both O z z' (f a t) (f a t')) (ht : Alike O z z' t t') :
    Both O z z' (Py.forEach l f t) (Py.forEach l f t') := by
  induction l generalizing t t' with
  | nil => exact ⟨rfl, ht⟩
  | cons a l ih =>
    unfold Py.forEach Py.bind
    obtain ⟨h1, h2⟩ := h a List.mem_cons_self t t' ht
    generalize f a t = x at h1 h2
    generalize f a t' = y at h1 h2
    obtain ⟨r, t1⟩ := x
    obtain ⟨r', t1'⟩ := y
    simp only at h1 h2
    subst h1
    rcases r with e | u
    · exact ⟨rfl, h2⟩
    · exact ih (fun a ha => h a (List.mem_cons_of_mem _ ha)) h2

theorem add_both {a : Addr} (ha : Apart O a) (ht : Alike O z z' t t') :
    Both O z z' (onAddressTable (AddressTable.add a) t) (onAddressTable (AddressTable.add a) t') := by
  unfold onAddressTable AddressTable.add
  rw [not_eq ha ht.own, not_eq ha ht.own', ← ht.gas, ← ht.size]
  simp only [Bool.not_false, Bool.or_true, if_true]
  by_cases h : t.at_.gas.length ≥ t.at_.maxSize
  · rw [if_pos h, if_pos h]
    exact ⟨rfl, ht⟩
  · rw [if_neg h, if_neg h]
    refine ⟨rfl, rfl, rfl, ht.own, ht.own', ?_, ht.dict, ht.index⟩
    intro g hg
    rcases List.mem_append.1 ((sort_perm _).mem_iff.1 hg) with hg | hg
    · exact ht.apart g hg
    · rw [List.mem_singleton.1 hg]
      exact ha

theorem remove_both {a : Addr} (ht : Alike O z z' t t') :
    Both O z z' (onAddressTable (AddressTable.remove a) t) (onAddressTable (AddressTable.remove a) t') := by
  unfold onAddressTable AddressTable.remove
  rw [← ht.gas]
  cases h : AddressTable.removeFirst t.at_.gas a with
  | none => exact ⟨rfl, ht⟩
  | some l =>
    refine ⟨rfl, ht.size, rfl, ht.own, ht.own', ?_, ht.dict, ht.index⟩
    intro g hg
    exact ht.apart g ((removeFirst_some h).2.2.subset ((sort_perm _).mem_iff.1 hg))

theorem associateAdd_both {a : Addr} (ha : Foreign O a) (ht : Alike O z z' t t') :
    Both O z z' (associateAdd a t) (associateAdd a t') := by
  unfold associateAdd AssocTable.ind
  have h1 : (a.oid == t.at_.ind.oid) = false := by simpa using (ha _ ht.own).2
  have h2 : (a.oid == t'.at_.ind.oid) = false := by simpa using (ha _ ht.own').2
  rw [h1, h2, ← ht.gas]
  split_ifs
  · exact add_both (.of_foreign ha) ht
  · exact ⟨rfl, ht⟩

theorem dictGet_zero {asap : Asap} (h : asap.value ≠ 0) {ν : Type} (v : ν) (l : List (Asap × ν)) :
    dictGet Asap.eq ((zero, v) :: l) asap = dictGet Asap.eq l asap := by
  have : Asap.eq zero asap = false := by simpa [Asap.eq, zero] using h.symm
  simp [dictGet, this]

theorem dictSet_zero {asap : Asap} (h : asap.value ≠ 0) {ν : Type} (v w : ν) (l : List (Asap × ν)) :
    dictSet Asap.eq ((zero, v) :: l) asap w = (zero, v) :: dictSet Asap.eq l asap w := by
  have : Asap.eq zero asap = false := by simpa [Asap.eq, zero] using h.symm
  simp [dictSet, this]

theorem dictSet_apart {l : List (Asap × List Addr)} (hl : ∀ p ∈ l, ∀ a ∈ p.2, Apart O a) {as : List Addr}
    (ha : ∀ a ∈ as, Apart O a) (asap : Asap) : ∀ p ∈ dictSet Asap.eq l asap as, ∀ a ∈ p.2, Apart O a := by
  induction l with
  | nil => simpa [dictSet] using ha
  | cons q l ih =>
    obtain ⟨k, v⟩ := q
    have hl' := fun p hp => hl p (List.mem_cons_of_mem _ hp)
    unfold dictSet
    split_ifs
    · intro p hp
      rcases List.mem_cons.1 hp with rfl | hp
      · exact ha
      · exact hl' p hp
    · intro p hp
      rcases List.mem_cons.1 hp with rfl | hp
      · exact hl _ List.mem_cons_self
      · exact ih hl' p hp

theorem dictGet_apart {l : List (Asap × List Addr)} (hl : ∀ p ∈ l, ∀ a ∈ p.2, Apart O a) {asap : Asap} {as : List Addr}
    (h : dictGet Asap.eq l asap = some as) : ∀ a ∈ as, Apart O a := by
  obtain ⟨k, hm, -⟩ := dictGet_mem asap_keyEq h
  exact hl _ hm

theorem associate_both (hz : z ∈ O) (hz' : z' ∈ O) {asap : Asap} {as : List Addr} (h0 : asap.value ≠ 0)
    (ha : ∀ a ∈ as, Foreign O a) (ht : Alike O z z' t t') :
    Both O z z' (associate asap as t) (associate asap as t') := by
  rw [associate_eq, associate_eq]
  obtain ⟨h1, h2⟩ := forEach_both (l := as) (f := associateAdd) (fun a h t t' ht => associateAdd_both (ha a h) ht) ht
  generalize Py.forEach as associateAdd t = x at h1 h2
  generalize Py.forEach as associateAdd t' = y at h1 h2
  obtain ⟨r, t1⟩ := x
  obtain ⟨r', t1'⟩ := y
  simp only at h1 h2
  subst h1
  rcases r with e | u
  · exact ⟨rfl, h2⟩
  · refine ⟨rfl, rebuild_alike hz hz' h2.size h2.gas h2.own h2.own' h2.apart ?_⟩
    obtain ⟨l, e1, e2, hl⟩ := h2.dict
    refine ⟨dictSet Asap.eq l asap ((dictGet Asap.eq l asap).getD [] ++ as), ?_, ?_, dictSet_apart hl ?_ _⟩
    · simp only [associateAppend, e1, dictGet_zero h0, dictSet_zero h0]
    · simp only [associateAppend, e2, dictGet_zero h0, dictSet_zero h0]
    · intro a hm
      rcases List.mem_append.1 hm with hm | hm
      · cases hd : dictGet Asap.eq l asap with
        | none => rw [hd] at hm; simp at hm
        | some v => rw [hd] at hm; exact dictGet_apart hl hd a hm
      · exact .of_foreign (ha a hm)

theorem disassociateOne_both {asap : Asap} {a : Addr} (h0 : asap.value ≠ 0) (ha : Foreign O a)
    (ht : Alike O z z' t t') : Both O z z' (disassociateOne asap a t) (disassociateOne asap a t') := by
  unfold disassociateOne Py.bind AssocTable.ind
  simp only [not_eq (.of_foreign ha) ht.own, not_eq (.of_foreign ha) ht.own', Bool.not_false, if_true]
  obtain ⟨h1, h2⟩ := remove_both (a := a) ht
  generalize onAddressTable (AddressTable.remove a) t = x at h1 h2
  generalize onAddressTable (AddressTable.remove a) t' = y at h1 h2
  obtain ⟨r, t1⟩ := x
  obtain ⟨r', t1'⟩ := y
  simp only at h1 h2
  subst h1
  rcases r with e | u
  · exact ⟨rfl, h2⟩
  · obtain ⟨l, e1, e2, hl⟩ := h2.dict
    simp only [e1, e2, dictGet_zero h0]
    cases hd : dictGet Asap.eq l asap with
    | none => exact ⟨rfl, h2⟩
    | some v =>
      simp only
      cases hr : AddressTable.removeFirst v a with
      | none => exact ⟨rfl, h2⟩
      | some v' =>
        refine ⟨rfl, h2.size, h2.gas, h2.own, h2.own', h2.apart, ⟨dictSet Asap.eq l asap v', ?_, ?_, ?_⟩, h2.index⟩
        · simp only [dictSet_zero h0]
        · simp only [dictSet_zero h0]
        · exact dictSet_apart hl (fun b hb => dictGet_apart hl hd b ((removeFirst_some hr).2.2.subset hb)) _

theorem disassociate_both (hz : z ∈ O) (hz' : z' ∈ O) {asap : Asap} {as : List Addr} (h0 : asap.value ≠ 0)
    (ha : ∀ a ∈ as, Foreign O a) (ht : Alike O z z' t t') :
    Both O z z' (disassociate asap as t) (disassociate asap as t') := by
  rw [disassociate_eq, disassociate_eq]
  obtain ⟨h1, h2⟩ := forEach_both (l := as) (f := disassociateOne asap) (fun a h t t' ht => disassociateOne_both h0 (ha a h) ht) ht
  generalize Py.forEach as (disassociateOne asap) t = x at h1 h2
  generalize Py.forEach as (disassociateOne asap) t' = y at h1 h2
  obtain ⟨r, t1⟩ := x
  obtain ⟨r', t1'⟩ := y
  simp only at h1 h2
  subst h1
  rcases r with e | u
  · exact ⟨rfl, h2⟩
  · exact ⟨rfl, rebuild_alike hz hz' h2.size h2.gas h2.own h2.own' h2.apart h2.dict⟩

theorem perform_both (hz : z ∈ O) (hz' : z' ∈ O) {op : AssocTable.Op} (h : Elsewhere O op) (ht : Alike O z z' t t') :
    Both O z z' (perform op t) (perform op t') := by
  cases op with
  | associate asap as => exact associate_both hz hz' h.1 h.2 ht
  | disassociate asap as => exact disassociate_both hz hz' h.1 h.2 ht
  | addAddress a => exact add_both (.of_foreign h) ht
  | removeAddress a => exact remove_both ht

/-! ## Lives -/

theorem readdress_alike {ia : Addr} (h : ia ∈ O) (ht : Alike O z z' t t') : Alike O z z' (t.readdress ia) t' :=
  ⟨ht.size, ht.gas, h, ht.own', ht.apart, ht.dict, ht.index⟩

theorem perform_ind (op : AssocTable.Op) (t : AssocTable) : (perform op t).2.at_.ind = t.at_.ind := by
  cases op with
  | associate asap as =>
    change (associate asap as t).2.at_.ind = _
    rw [associate_eq]
    have := (associateAdds_frame as t).2.2.1
    rcases hx : Py.forEach as associateAdd t with ⟨r, t1⟩
    rw [hx] at this
    cases r <;> exact this
  | disassociate asap as =>
    change (disassociate asap as t).2.at_.ind = _
    rw [disassociate_eq]
    have := (disassociates_frame asap as t).1
    rcases hx : Py.forEach as (disassociateOne asap) t with ⟨r, t1⟩
    rw [hx] at this
    cases r <;> exact this
  | addAddress a =>
    simp only [perform, onAddressTable, AddressTable.add]
    split_ifs <;> rfl
  | removeAddress a =>
    simp only [perform, onAddressTable, AddressTable.remove]
    cases AddressTable.removeFirst t.at_.gas a <;> rfl

theorem live_ind (es : List Event) (t : AssocTable) : (t.liveAll es).at_.ind = lastOwn t.at_.ind es := by
  induction es generalizing t with
  | nil => rfl
  | cons e es ih =>
    cases e with
    | call op =>
      have := ih (perform op t).2
      rw [perform_ind] at this
      exact this
    | readdress ia => exact ih (t.readdress ia)

theorem first_own (x : Addr) (es : List Event) : x ∈ ownAddresses x es := by
  induction es with
  | nil => simp [ownAddresses]
  | cons e es ih =>
    cases e with
    | call op => exact ih
    | readdress y => simp [ownAddresses]

theorem last_own (x : Addr) (es : List Event) : lastOwn x es ∈ ownAddresses x es := by
  induction es generalizing x with
  | nil => simp [ownAddresses, lastOwn]
  | cons e es ih =>
    cases e with
    | call op => exact ih x
    | readdress y => exact List.mem_cons_of_mem _ (ih y)

theorem lives (hz : z ∈ O) (hz' : z' ∈ O) (es : List Event) (ho : ∀ o ∈ ownAddresses t.at_.ind es, o ∈ O)
    (hc : ∀ op ∈ callsOf es, Elsewhere O op) (ht : Alike O z z' t t') :
    t.outcomes es = t'.outcomes ((callsOf es).map .call) ∧
    Alike O z z' (t.liveAll es) (t'.liveAll ((callsOf es).map .call)) := by
  induction es generalizing t t' with
  | nil => exact ⟨rfl, ht⟩
  | cons e es ih =>
    cases e with
    | call op =>
      obtain ⟨h1, h2⟩ := perform_both hz hz' (hc op List.mem_cons_self) ht
      have hi := perform_ind op t
      obtain ⟨g1, g2⟩ := ih (t := (perform op t).2) (t' := (perform op t').2) (by rw [hi]; exact ho)
        (fun o h => hc o (List.mem_cons_of_mem _ h)) h2
      refine ⟨?_, g2⟩
      simp only [callsOf, List.map_cons, outcomes, h1, g1]
    | readdress ia =>
      have hia : ia ∈ O := ho _ (List.mem_cons_of_mem _ (first_own ia es))
      exact ih (t := t.readdress ia) (fun o h => ho o (List.mem_cons_of_mem _ h)) hc (readdress_alike hia ht)

end

theorem init_eq (u : AddressTable) :
    (init u []).2 = { at_ := u, asapAddrs := [(zero, [u.ind])], tsapAsaps := [(u.getTsap u.ind, [zero])] } := by
  have h : Py.forEach [u.ind] associateAdd { at_ := u, asapAddrs := [], tsapAsaps := [] } =
      (.ok (), { at_ := u, asapAddrs := [], tsapAsaps := [] }) := by
    simp [Py.forEach, Py.bind, Py.pure, associateAdd, AssocTable.ind]
  unfold AssocTable.init Py.bind
  simp only [associate_eq, h]
  rfl

/-- The two devices at the start. -/
theorem start {O : List Addr} {ia ia' : Addr} (h : ia ∈ O) (h' : ia' ∈ O) {gs : List Addr} (hg : ∀ g ∈ gs, Apart O g)
    (n : Nat) :
    Alike O ia ia' (init (AddressTable.init ia gs n) []).2 (init (AddressTable.init ia' gs n) []).2 := by
  have hs : ∀ g ∈ AddressTable.sort gs, Apart O g := fun g hg' => hg g ((sort_perm gs).mem_iff.1 hg')
  rw [init_eq, init_eq]
  refine ⟨rfl, rfl, h, h', hs, ⟨[], rfl, rfl, by simp⟩, fun k => ?_⟩
  have h1 := getTsap_own (u := AddressTable.init ia gs n) hs h k
  have h2 := getTsap_own (u := AddressTable.init ia' gs n) hs h' k
  have b1 : ((AddressTable.init ia gs n).getTsap ia == some (k + 1)) = false := by simpa using h1
  have b2 : ((AddressTable.init ia' gs n).getTsap ia' == some (k + 1)) = false := by simpa using h2
  simp only [dictGet]
  change (if ((AddressTable.init ia gs n).getTsap ia == some (k + 1)) = true then _ else _) =
    (if ((AddressTable.init ia' gs n).getTsap ia' == some (k + 1)) = true then _ else _)
  rw [b1, b2]

/-! ## Decoding and encoding -/

/-- Tables alike, with the same own address. -/
def AlikeNow (tb tb' : Tables) : Prop :=
  tb.got = tb'.got ∧ ∃ O z z' t t', tb.assoc = some t ∧ tb'.assoc = some t' ∧ Alike O z z' t t' ∧
    t.at_.ind = t'.at_.ind

theorem Alike.at_eq {O : List Addr} {z z' : Addr} {t t' : AssocTable} (h : Alike O z z' t t')
    (hi : t.at_.ind = t'.at_.ind) : t.at_ = t'.at_ := by
  obtain ⟨⟨a, b, c⟩, d, e⟩ := t
  obtain ⟨⟨a', b', c'⟩, d', e'⟩ := t'
  have h1 := h.size
  have h2 := h.gas
  simp only at h1 h2 hi ⊢
  rw [h1, h2, hi]

theorem readAlike : ReadAlike AlikeNow := by
  rintro ⟨a, g⟩ ⟨a', g'⟩ ⟨hg, O, z, z', t, t', ha, ha', h, hi⟩ k l m
  simp only at hg ha ha'
  subst hg ha ha'
  have he := h.at_eq hi
  have htsap : ∀ d, Tables.getTsap ⟨some t, g⟩ d = Tables.getTsap ⟨some t', g⟩ d := by
    intro d
    simp only [Tables.getTsap, AssocTable.getTsap, he]
  have hind : Tables.individualAddress ⟨some t, g⟩ = Tables.individualAddress ⟨some t', g⟩ := by
    simp only [Tables.individualAddress, AssocTable.ind, he]
  have hval : ∀ n m', t'.at_.getTsap ⟨0, l.destination⟩ = some (n + 1) →
      groupValueDecode ⟨some t, g⟩ l m' = groupValueDecode ⟨some t', g⟩ l m' := by
    intro n m' hn
    unfold groupValueDecode Tables.getAsapsAndDpts Tables.getAsaps AssocTable.getAsaps AssocTable.getTsap
    simp only [he, hn, h.index n]
  have hgroup : tDataGroupDecode k ⟨some t, g⟩ l m = tDataGroupDecode k ⟨some t', g⟩ l m := by
    unfold tDataGroupDecode
    rw [htsap]
    cases hx : Tables.getTsap ⟨some t', g⟩ l.destination with
    | error e => rfl
    | ok o =>
      simp only [Tables.getTsap, AssocTable.getTsap, Except.ok.injEq] at hx
      cases o with
      | none => rfl
      | some n =>
        cases n with
        | zero => rfl
        | succ n => simp only [groupServiceDecode, hval n _ hx]
  have hindiv : tDataIndividualDecode k ⟨some t, g⟩ l m = tDataIndividualDecode k ⟨some t', g⟩ l m := by
    unfold tDataIndividualDecode
    rw [htsap, hind]
  unfold lDataDecode nDataGroupDecode nDataIndividualDecode
  rw [hgroup, hindiv]

theorem decodeAll_alike (fs : List Msg) {s s' : State} (h : AgreeBy AlikeNow s s') :
    decodeAll s fs = decodeAll s' fs := by
  induction fs generalizing s s' with
  | nil => rfl
  | cons f fs ih =>
    obtain ⟨h1, h2⟩ := decode_same readAlike f h
    simp only [decodeAll, h1, ih h2]

theorem sendAddresses_alike {O : List Addr} {z z' : Addr} {t t' : AssocTable} (h : Alike O z z' t t')
    (hi : t.at_.ind = t'.at_.ind) {asap : Asap} (h0 : asap.value ≠ 0) : t.sendAddresses asap = t'.sendAddresses asap := by
  obtain ⟨l, e1, e2, -⟩ := h.dict
  have he := h.at_eq hi
  have hts : t.getTsaps asap = t'.getTsaps asap := by
    unfold getTsaps
    rw [e1, e2, dictGet_zero h0, dictGet_zero h0, he]
  have hga : ∀ ts, t.getAddresses ts = t'.getAddresses ts := by
    intro ts
    induction ts with
    | nil => rfl
    | cons x ts ih => cases x <;> simp only [AssocTable.getAddresses, he, ih]
  unfold sendAddresses
  rw [hts]
  simp only [hga]

theorem encode_alike {O : List Addr} {z z' : Addr} {t t' : AssocTable} (h : Alike O z z' t t')
    (hi : t.at_.ind = t'.at_.ind) (s : State) {m : InMsg} (hm : NotOfZero m) :
    (encodeMsg m { s with assoc := some t }).1 = (encodeMsg m { s with assoc := some t' }).1 := by
  have he := h.at_eq hi
  have hf : ∀ k x, finish k { s with assoc := some t } x = finish k { s with assoc := some t' } x := by
    intro k x
    cases k <;> rfl
  have hw : ∀ k asap d, asap.value ≠ 0 → (groupWriteEncode k asap d { s with assoc := some t }).1 =
      (groupWriteEncode k asap d { s with assoc := some t' }).1 := by
    intro k asap d h0
    obtain hg | ⟨g, hg⟩ : s.got = none ∨ ∃ g, s.got = some g := by cases s.got <;> simp
    · simp only [groupWriteEncode, State.getDpt, hg]
    · rw [groupWrite_eq k (s := { s with assoc := some t }) rfl hg,
        groupWrite_eq k (s := { s with assoc := some t' }) rfl hg, sendAddresses_alike h hi h0]
      simp only [hf]
  unfold encodeMsg
  cases m with
  | groupRead asap =>
    simp only
    rw [groupRead_eq (s := { s with assoc := some t }) rfl, groupRead_eq (s := { s with assoc := some t' }) rfl,
      sendAddresses_alike h hi hm]
    simp only [hf]
  | groupWriteReq asap d => exact hw _ _ _ hm
  | groupWriteInd asap d => exact hw _ _ _ hm
  | propertyRead asap oi pid n si =>
    simp only
    rw [propertyRead_eq (s := { s with assoc := some t }) rfl, propertyRead_eq (s := { s with assoc := some t' }) rfl, he, hf]
  | propertyWrite asap oi pid n si data =>
    simp only
    rw [propertyWrite_eq (s := { s with assoc := some t }) rfl, propertyWrite_eq (s := { s with assoc := some t' }) rfl, he]
    simp only [hf]
  | tunnelingAck q st =>
    simp only [tunnelingAckEncode, connectionHeader]
    cases s.chan <;> rfl
  | _ => rfl

theorem calls_last (ia : Addr) (ops : List AssocTable.Op) : lastOwn ia (ops.map .call) = ia := by
  induction ops with
  | nil => rfl
  | cons op ops ih => exact ih

/-- The device in its life and the fresh one, at the end. -/
theorem ends {ia : Addr} {gs : List Addr} (n : Nat) {es : List Event}
    (hg : ∀ g ∈ gs, ∀ o ∈ ownAddresses ia es, g.fs ≠ o.fs)
    (hc : ∀ op ∈ callsOf es, Elsewhere (ownAddresses ia es) op) :
    let t := (AssocTable.init (AddressTable.init ia gs n) []).2
    let t' := (AssocTable.init (AddressTable.init (lastOwn ia es) gs n) []).2
    t.outcomes es = t'.outcomes ((callsOf es).map .call) ∧
    Alike (ownAddresses ia es) ia (lastOwn ia es) (t.liveAll es) (t'.liveAll ((callsOf es).map .call)) ∧
    (t.liveAll es).at_.ind = lastOwn ia es ∧
    (t'.liveAll ((callsOf es).map .call)).at_.ind = lastOwn ia es := by
  intro t t'
  have h := start (first_own ia es) (last_own ia es) (gs := gs) hg n
  have hi : t.at_.ind = ia := by
    change (AssocTable.init (AddressTable.init ia gs n) []).2.at_.ind = ia
    rw [init_eq]
    rfl
  have hi' : t'.at_.ind = lastOwn ia es := by
    change (AssocTable.init (AddressTable.init (lastOwn ia es) gs n) []).2.at_.ind = _
    rw [init_eq]
    rfl
  obtain ⟨h1, h2⟩ := lives (first_own ia es) (last_own ia es) (t := t) es (by rw [hi]; exact fun o ho => ho) hc h
  refine ⟨h1, h2, ?_, ?_⟩
  · rw [live_ind, hi]
  · rw [live_ind, hi', calls_last]

end Readdress

open Readdress AssocTable Spec

/-- C68, the part that holds: a device that was given new own addresses between its other calls is like one built with
its last address: the calls end alike, every session of messages decodes alike, and everything except group messages of
ASAP 0 encodes alike. Assumed: no own address is also a group address, and the other calls are about other ASAPs than 0 and
other addresses than the own ones. -/
theorem c68_partial {ia : Addr} {gs : List Addr} (n : Nat) {es : List Event}
    (hg : ∀ g ∈ gs, ∀ o ∈ ownAddresses ia es, g.fs ≠ o.fs)
    (hc : ∀ op ∈ callsOf es, Elsewhere (ownAddresses ia es) op) :
    let t := (AssocTable.init (AddressTable.init ia gs n) []).2
    let t' := (AssocTable.init (AddressTable.init (lastOwn ia es) gs n) []).2
    t.outcomes es = t'.outcomes ((callsOf es).map .call) ∧
    ∀ s : State,
      let d := { s with assoc := some (t.liveAll es) }
      let d' := { s with assoc := some (t'.liveAll ((callsOf es).map .call)) }
      (∀ fs, decodeAll d fs = decodeAll d' fs) ∧ ∀ m, NotOfZero m → (encodeMsg m d).1 = (encodeMsg m d').1 := by
  intro t t'
  obtain ⟨h1, h2, h3, h4⟩ := ends n hg hc
  refine ⟨h1, fun s => ⟨fun fs => ?_, fun m hm => encode_alike h2 (h3.trans h4.symm) s hm⟩⟩
  exact decodeAll_alike fs ⟨rfl, ⟨rfl, _, _, _, _, _, rfl, rfl, h2, h3.trans h4.symm⟩, rfl, rfl⟩

/-- C68 fails for ASAP 0: after such a life that ends with another own address value than the first, sending a group read
of ASAP 0 raises `TypeError` on every medium that can send, while the device built with the last address sends it there. -/
theorem c68_refuted {ia : Addr} {gs : List Addr} (n : Nat) {es : List Event}
    (hg : ∀ g ∈ gs, ∀ o ∈ ownAddresses ia es, g.fs ≠ o.fs)
    (hc : ∀ op ∈ callsOf es, Elsewhere (ownAddresses ia es) op) (hne : ia.fs ≠ (lastOwn ia es).fs) (s : State)
    (name : Option String) :
    let t := (AssocTable.init (AddressTable.init ia gs n) []).2
    let t' := (AssocTable.init (AddressTable.init (lastOwn ia es) gs n) []).2
    (encodeMsg (.groupRead ⟨0, name⟩) { s with assoc := some (t.liveAll es) }).1 = .error .typeError ∧
    (encodeMsg (.groupRead ⟨0, name⟩) { s with assoc := some (t'.liveAll ((callsOf es).map .call)) }).1 =
      finish .req s (cemi 0x11 [] (readTelegram (lastOwn ia es).fs)) := by
  intro t t'
  obtain ⟨-, h2, h3, h4⟩ := ends n hg hc
  obtain ⟨l, e1, e2, -⟩ := h2.dict
  have k1 : dictGet Asap.eq (t.liveAll es).asapAddrs ⟨0, name⟩ = some [ia] := by
    rw [e1]
    rfl
  have k2 : dictGet Asap.eq (t'.liveAll ((callsOf es).map .call)).asapAddrs ⟨0, name⟩ = some [lastOwn ia es] := by
    rw [e2]
    rfl
  constructor
  · change (groupReadEncode _ _).1 = _
    rw [groupRead_eq (s := { s with assoc := some (t.liveAll es) }) rfl]
    have : (t.liveAll es).sendAddresses ⟨0, name⟩ = .error .typeError := by
      unfold sendAddresses getTsaps
      rw [k1]
      simp only
      rw [getAddresses_unresolved ⟨ia, List.mem_singleton.2 rfl, ?_⟩]
      rw [AddressTable.getTsap_none]
      refine ⟨?_, by rw [h3]; exact hne⟩
      intro hm
      obtain ⟨g, hg', he⟩ := List.mem_map.1 hm
      exact h2.apart g hg' ia (first_own ia es) he
    rw [this]
  · change (groupReadEncode _ _).1 = _
    rw [groupRead_eq (s := { s with assoc := some (t'.liveAll ((callsOf es).map .call)) }) rfl]
    rw [send_resolved k2]
    · rfl
    · intro a ha
      rw [List.mem_singleton.1 ha, Ne, AddressTable.getTsap_none, h4]
      simp

namespace Readdress

/-- A life: two group addresses are associated, the own address changes from 0x1101 to 0x1102 in between, and an
association is given up. -/
def exLife : List Event :=
  [.call (.associate ⟨1, none⟩ [⟨10, 0x0901⟩]), .readdress ⟨2, 0x1102⟩,
   .call (.associate ⟨2, none⟩ [⟨11, 0x0902⟩, ⟨12, 0x0903⟩]), .call (.disassociate ⟨2, none⟩ [⟨11, 0x0902⟩])]

theorem exLife_apart : ∀ g ∈ ([⟨20, 0x0A01⟩] : List Addr), ∀ o ∈ ownAddresses ⟨1, 0x1101⟩ exLife, g.fs ≠ o.fs := by
  decide

theorem exLife_elsewhere : ∀ op ∈ callsOf exLife, Elsewhere (ownAddresses ⟨1, 0x1101⟩ exLife) op := by
  simp only [callsOf, exLife, ownAddresses, List.forall_mem_cons, List.not_mem_nil, Elsewhere, Foreign,
    false_imp_iff, implies_true, and_true]
  decide

example := c68_partial (ia := ⟨1, 0x1101⟩) (gs := [⟨20, 0x0A01⟩]) 8 exLife_apart exLife_elsewhere

example := c68_refuted (ia := ⟨1, 0x1101⟩) (gs := [⟨20, 0x0A01⟩]) 8 exLife_apart exLife_elsewhere (by decide)
  (exState .usbHid) none

end Readdress
end Knx
