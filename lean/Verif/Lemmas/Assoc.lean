import Verif.Lemmas.Tables
import Verif.Spec.Tables

/-! # Lemmas about the association table -/

namespace Knx
namespace AssocTable
open AddressTable

/-- The abstract content of the ASAP dictionary. -/
def absDict (t : AssocTable) : Spec.Assoc := t.asapAddrs.map fun p => (p.1.value, p.2.map Addr.fs)

/-! ## The derived index -/

/-- The pairs (TSAP, ASAP) that the index is built from. -/
def pairs (at_ : AddressTable) (d : List (Asap × List Addr)) : List (Option Nat × Asap) :=
  d.flatMap fun p => p.2.map fun a => (at_.getTsap a, p.1)

def pairStep (d : List (Option Nat × List Asap)) (q : Option Nat × Asap) : List (Option Nat × List Asap) :=
  match dictGet (· == ·) d q.1 with
  | none => dictSet (· == ·) d q.1 [q.2]
  | some l => dictSet (· == ·) d q.1 (l ++ [q.2])

theorem rebuild_pairs (t : AssocTable) :
    t.rebuild.tsapAsaps = (pairs t.at_ t.asapAddrs).foldl pairStep [] := by
  have inner : ∀ (asap : Asap) (l : List Addr) (d : List (Option Nat × List Asap)),
      l.foldl (rebuildStep t.at_ asap) d = (l.map fun a => (t.at_.getTsap a, asap)).foldl pairStep d := by
    intro asap l
    induction l with
    | nil => intro d; rfl
    | cons a l ih => intro d; exact ih _
  have outer : ∀ (l : List (Asap × List Addr)) (d : List (Option Nat × List Asap)),
      l.foldl (fun d p => p.2.foldl (rebuildStep t.at_ p.1) d) d = (pairs t.at_ l).foldl pairStep d := by
    intro l
    induction l with
    | nil => intro d; rfl
    | cons p l ih =>
      intro d
      rw [List.foldl_cons, ih, inner]
      simp only [pairs, List.flatMap_cons, List.foldl_append]
  exact outer _ _

theorem dictGet_fold (ps : List (Option Nat × Asap)) (d : List (Option Nat × List Asap)) (k : Option Nat) :
    dictGet (· == ·) (ps.foldl pairStep d) k =
      if (ps.filter fun q => q.1 == k) = [] then dictGet (· == ·) d k
      else some ((dictGet (· == ·) d k).getD [] ++ (ps.filter fun q => q.1 == k).map (·.2)) := by
  have hk : KeyEq (fun a b : Option Nat => a == b) id := beq_keyEq
  induction ps generalizing d with
  | nil => simp
  | cons q ps ih =>
    rw [List.foldl_cons, ih]
    have hstep : dictGet (· == ·) (pairStep d q) k =
        if q.1 = k then some ((dictGet (· == ·) d k).getD [] ++ [q.2]) else dictGet (· == ·) d k := by
      unfold pairStep
      by_cases hq : q.1 = k
      · subst hq
        rw [if_pos rfl]
        cases h : dictGet (· == ·) d q.1 with
        | none => rw [dictGet_dictSet_same hk d rfl]; rfl
        | some l => rw [dictGet_dictSet_same hk d rfl]; rfl
      · rw [if_neg hq]
        cases h : dictGet (· == ·) d q.1 with
        | none => exact dictGet_dictSet_other hk d hq _
        | some l => exact dictGet_dictSet_other hk d hq _
    rw [hstep]
    by_cases hq : q.1 = k
    · subst hq
      simp only [if_true, List.filter_cons, beq_self_eq_true, reduceCtorEq, if_false, List.map_cons]
      by_cases h1 : List.filter (fun q' : Option Nat × Asap => q'.1 == q.1) ps = []
      · rw [if_pos h1, h1]
        simp
      · rw [if_neg h1]
        simp
    · have hb : (q.1 == k) = false := by simpa using hq
      simp only [if_neg hq, List.filter_cons, hb, Bool.false_eq_true, if_false]

/-- The ASAP objects an address is associated with, in order. -/
def routedObjs (d : List (Asap × List Addr)) (a : BitVec 16) : List Asap :=
  d.flatMap fun p => List.replicate ((p.2.map Addr.fs).count a) p.1

theorem routedObjs_values (t : AssocTable) (a : BitVec 16) :
    (routedObjs t.asapAddrs a).map Asap.value = Spec.routed t.absDict a := by
  unfold routedObjs Spec.routed absDict
  induction t.asapAddrs with
  | nil => rfl
  | cons p d ih => simp only [List.flatMap_cons, List.map_append, List.map_replicate, List.map_cons, ih]

theorem pairs_filter {at_ : AddressTable} {a : Addr} {n : Nat} (h : at_.getTsap a = some n)
    (d : List (Asap × List Addr)) :
    ((pairs at_ d).filter fun q => q.1 == some n).map (·.2) = routedObjs d a.fs := by
  have inner : ∀ (asap : Asap) (l : List Addr),
      ((l.map fun x => (at_.getTsap x, asap)).filter fun q => q.1 == some n).map (·.2) =
        List.replicate ((l.map Addr.fs).count a.fs) asap := by
    intro asap l
    induction l with
    | nil => rfl
    | cons x l ih =>
      simp only [List.map_cons, List.filter_cons, List.count_cons]
      by_cases hx : x.fs = a.fs
      · have : at_.getTsap x = some n := by rw [getTsap_congr at_ hx, h]
        simp only [this, beq_self_eq_true, if_true, List.map_cons, ih, hx, List.replicate_succ]
      · have : at_.getTsap x ≠ some n := fun e => hx (getTsap_inj (e.trans h.symm) (by rw [e]; simp))
        have hb : (at_.getTsap x == some n) = false := by simpa using this
        have hb' : (x.fs == a.fs) = false := by simpa using hx
        simp only [hb, hb', Bool.false_eq_true, if_false, ih, Nat.add_zero]
  unfold pairs routedObjs
  induction d with
  | nil => rfl
  | cons p d ih => simp only [List.flatMap_cons, List.filter_append, List.map_append, ih, inner]

/-- Routing of an address known to the address table, after the index was rebuilt. -/
theorem route_rebuilt {t : AssocTable} {a : Addr} (h : t.at_.getTsap a ≠ none) :
    t.rebuild.getAsapsFromAddress a =
      if routedObjs t.asapAddrs a.fs = [] then .error .keyError else .ok (routedObjs t.asapAddrs a.fs) := by
  cases hn : t.at_.getTsap a with
  | none => exact absurd hn h
  | some n =>
    have e := pairs_filter hn t.asapAddrs
    unfold getAsapsFromAddress getAsaps
    have hat : t.rebuild.at_ = t.at_ := rfl
    rw [hat, hn, rebuild_pairs, dictGet_fold]
    by_cases hf : ((pairs t.at_ t.asapAddrs).filter fun q => q.1 == some n) = []
    · rw [hf] at e
      simp only [List.map_nil] at e
      rw [if_pos hf, ← e]
      simp [dictGet]
    · have hne : routedObjs t.asapAddrs a.fs ≠ [] := by
        rw [← e]
        simpa using hf
      rw [if_neg hf, if_neg hne, e]
      simp [dictGet]

/-- Routing of an unknown address, after the index was rebuilt, if every associated address is known. -/
theorem route_unknown {t : AssocTable} {a : Addr} (h : t.at_.getTsap a = none)
    (hall : ∀ p ∈ t.asapAddrs, ∀ x ∈ p.2, t.at_.getTsap x ≠ none) :
    t.rebuild.getAsapsFromAddress a = .error .keyError ∧ routedObjs t.asapAddrs a.fs = [] := by
  constructor
  · unfold getAsapsFromAddress getAsaps
    have hat : t.rebuild.at_ = t.at_ := rfl
    rw [hat, h, rebuild_pairs, dictGet_fold]
    have : ((pairs t.at_ t.asapAddrs).filter fun q => q.1 == none) = [] := by
      rw [List.filter_eq_nil_iff]
      intro q hq
      simp only [pairs, List.mem_flatMap, List.mem_map] at hq
      obtain ⟨p, hp, x, hx, rfl⟩ := hq
      have := hall p hp x hx
      simpa using this
    rw [if_pos this]
    rfl
  · unfold routedObjs
    rw [List.flatMap_eq_nil_iff]
    intro p hp
    have : (p.2.map Addr.fs).count a.fs = 0 := by
      rw [List.count_eq_zero]
      intro hm
      simp only [List.mem_map] at hm
      obtain ⟨x, hx, he⟩ := hm
      exact hall p hp x hx (by rw [getTsap_congr t.at_ he, h])
    rw [this]
    rfl

/-! ## Sending -/

theorem getAddresses_resolved {t : AssocTable} {l : List Addr} (h : ∀ a ∈ l, t.at_.getTsap a ≠ none) :
    ∃ l', t.getAddresses (l.map t.at_.getTsap) = .ok l' ∧ l'.map Addr.fs = l.map Addr.fs := by
  induction l with
  | nil => exact ⟨[], rfl, rfl⟩
  | cons a l ih =>
    obtain ⟨l', h1, h2⟩ := ih fun x hx => h x (List.mem_cons_of_mem _ hx)
    cases hn : t.at_.getTsap a with
    | none => exact absurd hn (h a List.mem_cons_self)
    | some n =>
      obtain ⟨b, hb, he⟩ := getTsap_getAddress hn
      exact ⟨b :: l', by simp [getAddresses, hn, hb, h1], by simp [he, h2]⟩

theorem getAddresses_unresolved {t : AssocTable} {l : List Addr} (h : ∃ a ∈ l, t.at_.getTsap a = none) :
    t.getAddresses (l.map t.at_.getTsap) = .error .typeError := by
  induction l with
  | nil => simp at h
  | cons a l ih =>
    cases hn : t.at_.getTsap a with
    | none => simp [getAddresses, hn]
    | some n =>
      obtain ⟨b, hb, he⟩ := getTsap_getAddress hn
      have : ∃ a ∈ l, t.at_.getTsap a = none := by
        obtain ⟨x, hx, hx'⟩ := h
        rcases List.mem_cons.1 hx with rfl | hx
        · rw [hn] at hx'; simp at hx'
        · exact ⟨x, hx, hx'⟩
      simp [getAddresses, hn, hb, ih this]

theorem send_resolved {t : AssocTable} {asap : Asap} {l : List Addr}
    (hd : dictGet Asap.eq t.asapAddrs asap = some l) (h : ∀ a ∈ l, t.at_.getTsap a ≠ none) :
    t.sendAddresses asap = .ok (l.map Addr.fs) := by
  obtain ⟨l', h1, h2⟩ := getAddresses_resolved h
  unfold sendAddresses getTsaps
  rw [hd]
  simp only
  rw [h1]
  simp only [h2]

theorem send_unknown {t : AssocTable} {asap : Asap} (hd : dictGet Asap.eq t.asapAddrs asap = none) :
    t.sendAddresses asap = .error .keyError := by
  unfold sendAddresses getTsaps
  rw [hd]

/-! ## The dictionary and the abstract state -/

theorem absDict_get (t : AssocTable) (asap : Asap) :
    ((dictGet Asap.eq t.asapAddrs asap).getD []).map Addr.fs = Spec.addressesOf t.absDict asap.value := by
  unfold absDict
  induction t.asapAddrs with
  | nil => rfl
  | cons p d ih =>
    obtain ⟨k, l⟩ := p
    simp only [dictGet, List.map_cons, Spec.addressesOf]
    by_cases h : k.value = asap.value
    · simp [Asap.eq, h]
    · have : ¬ Asap.eq k asap = true := by simpa [Asap.eq] using h
      rw [if_neg this, if_neg h]
      exact ih

theorem absDict_append (asap : Asap) (as : List Addr) (t : AssocTable) :
    (associateAppend asap as t).absDict = Spec.associate t.absDict asap.value (as.map Addr.fs) := by
  unfold associateAppend absDict
  simp only
  generalize t.asapAddrs = d
  induction d with
  | nil => simp [dictSet, dictGet, Spec.associate]
  | cons p d ih =>
    obtain ⟨k, l⟩ := p
    simp only [dictGet, dictSet, List.map_cons, Spec.associate]
    by_cases h : k.value = asap.value
    · have : Asap.eq k asap = true := by simpa [Asap.eq] using h
      rw [if_pos this, if_pos this, if_pos h]
      simp
    · have : ¬ Asap.eq k asap = true := by simpa [Asap.eq] using h
      rw [if_neg this, if_neg this, if_neg h, List.map_cons, ih]

/-! ## associate -/

theorem associateAdd_cases (a : Addr) (t : AssocTable) :
    (associateAdd a t = (.ok (), t) ∧ (a.fs ∈ t.at_.gas.map Addr.fs ∨ a.oid = t.at_.ind.oid)) ∨
    (a.fs ∉ t.at_.gas.map Addr.fs ∧ a.oid ≠ t.at_.ind.oid ∧ t.at_.gas.length < t.at_.maxSize ∧
      associateAdd a t = (.ok (), { t with at_ := { t.at_ with gas := sort (t.at_.gas ++ [a]) } })) ∨
    (a.fs ∉ t.at_.gas.map Addr.fs ∧ a.oid ≠ t.at_.ind.oid ∧ t.at_.maxSize ≤ t.at_.gas.length ∧
      associateAdd a t = (.error .addressTable, t)) := by
  unfold associateAdd AssocTable.ind
  by_cases h : (!(AddressTable.mem t.at_.gas a) && !(a.oid == t.at_.ind.oid)) = true
  · rw [if_pos h]
    right
    simp only [Bool.and_eq_true, Bool.not_eq_true', beq_eq_false_iff_ne, ne_eq] at h
    have hm : a.fs ∉ t.at_.gas.map Addr.fs := by
      rw [← mem_iff]; simp [h.1]
    unfold onAddressTable
    rcases add_cases a t.at_ with ⟨e, h1, -⟩ | ⟨e, h1, -⟩ | ⟨e, h1, -⟩
    · left
      rw [e]
      exact ⟨hm, h.2, h1, rfl⟩
    · right
      rw [e]
      exact ⟨hm, h.2, h1, rfl⟩
    · exact absurd h1 hm
  · rw [if_neg h]
    left
    refine ⟨rfl, ?_⟩
    simp only [Bool.and_eq_true, Bool.not_eq_true', beq_eq_false_iff_ne, ne_eq, not_and, not_not] at h
    by_cases hm : a.fs ∈ t.at_.gas.map Addr.fs
    · exact Or.inl hm
    · right
      apply h
      have := (mem_iff t.at_.gas a).not.2 hm
      simpa using this

/-- What the first loop of `associate` does, whether it raises or not. -/
theorem associateAdds_frame (as : List Addr) (t : AssocTable) :
    let t' := (Py.forEach as associateAdd t).2
    t'.asapAddrs = t.asapAddrs ∧ t'.tsapAsaps = t.tsapAsaps ∧ t'.at_.ind = t.at_.ind ∧
    t'.at_.maxSize = t.at_.maxSize ∧ (∀ x ∈ t.at_.gas.map Addr.fs, x ∈ t'.at_.gas.map Addr.fs) ∧
    (∀ x ∈ t'.at_.gas.map Addr.fs, x ∈ t.at_.gas.map Addr.fs ∨ x ∈ as.map Addr.fs) ∧
    t'.at_.gas.length ≤ max t.at_.gas.length t.at_.maxSize ∧
    ((t.at_.gas.map Addr.fs).Nodup → (t'.at_.gas.map Addr.fs).Nodup) := by
  induction as generalizing t with
  | nil => exact ⟨rfl, rfl, rfl, rfl, fun x h => h, fun x h => Or.inl h, le_max_left _ _, fun h => h⟩
  | cons a as ih =>
    simp only [Py.forEach, Py.bind]
    rcases associateAdd_cases a t with ⟨e, -⟩ | ⟨hm, -, hl, e⟩ | ⟨-, -, -, e⟩
    · rw [e]
      obtain ⟨h1, h2, h3, h4, h5, h6, h7, h8⟩ := ih t
      refine ⟨h1, h2, h3, h4, h5, fun x hx => ?_, h7, h8⟩
      rcases h6 x hx with h | h
      · exact Or.inl h
      · exact Or.inr (List.mem_cons_of_mem _ h)
    · rw [e]
      simp only
      obtain ⟨h1, h2, h3, h4, h5, h6, h7, h8⟩ := ih { t with at_ := { t.at_ with gas := sort (t.at_.gas ++ [a]) } }
      have hp : ((sort (t.at_.gas ++ [a])).map Addr.fs).Perm (t.at_.gas.map Addr.fs ++ [a.fs]) := by
        have := sort_fs_perm (t.at_.gas ++ [a])
        simpa using this
      refine ⟨h1, h2, h3, h4, fun x hx => h5 x ?_, fun x hx => ?_, ?_, fun hn => h8 ?_⟩
      · exact hp.mem_iff.2 (List.mem_append_left _ hx)
      · rcases h6 x hx with h | h
        · rcases List.mem_append.1 (hp.mem_iff.1 h) with h | h
          · exact Or.inl h
          · right
            rw [List.mem_singleton.1 h]
            exact List.mem_cons_self
        · exact Or.inr (List.mem_cons_of_mem _ h)
      · simp only [sort_length, List.length_append, List.length_singleton] at h7
        omega
      · refine hp.nodup_iff.2 ?_
        rw [List.nodup_append]
        refine ⟨hn, by simp, ?_⟩
        intro x hx y hy
        rw [List.mem_singleton.1 hy]
        exact fun e => hm (e ▸ hx)
    · rw [e]
      exact ⟨rfl, rfl, rfl, rfl, fun x h => h, fun x h => Or.inl h, le_max_left _ _, fun h => h⟩

/-- On success every address not identical with the individual address object is in the table. -/
theorem associateAdds_ok (as : List Addr) (t : AssocTable) (h : (Py.forEach as associateAdd t).1 = .ok ()) :
    ∀ a ∈ as, a.fs ∈ (Py.forEach as associateAdd t).2.at_.gas.map Addr.fs ∨ a.oid = t.at_.ind.oid := by
  induction as generalizing t with
  | nil => simp
  | cons a as ih =>
    simp only [Py.forEach, Py.bind] at h ⊢
    rcases associateAdd_cases a t with ⟨e, hm⟩ | ⟨hm, -, hl, e⟩ | ⟨-, -, -, e⟩
    · rw [e] at h ⊢
      intro x hx
      rcases List.mem_cons.1 hx with rfl | hx
      · rcases hm with hm | hm
        · exact Or.inl ((associateAdds_frame as t).2.2.2.2.1 _ hm)
        · exact Or.inr hm
      · exact ih t h x hx
    · rw [e] at h ⊢
      simp only at h ⊢
      intro x hx
      rcases List.mem_cons.1 hx with rfl | hx
      · left
        apply (associateAdds_frame as _).2.2.2.2.1
        refine (sort_fs_perm _).mem_iff.2 ?_
        simp
      · exact ih _ h x hx
    · rw [e] at h
      simp at h

theorem associateAdds_error (as : List Addr) (t : AssocTable) (e : Err)
    (h : (Py.forEach as associateAdd t).1 = .error e) : e = .addressTable := by
  induction as generalizing t with
  | nil => simp [Py.forEach, Py.pure] at h
  | cons a as ih =>
    simp only [Py.forEach, Py.bind] at h
    rcases associateAdd_cases a t with ⟨e', -⟩ | ⟨-, -, -, e'⟩ | ⟨-, -, -, e'⟩
    · rw [e'] at h; exact ih t h
    · rw [e'] at h; exact ih _ h
    · rw [e'] at h
      simpa using h.symm

theorem associate_eq (asap : Asap) (as : List Addr) (t : AssocTable) :
    associate asap as t =
      match Py.forEach as associateAdd t with
      | (.ok _, t') => (.ok (), (associateAppend asap as t').rebuild)
      | (.error e, t') => (.error e, t') := by
  unfold associate Py.bind Py.modify
  rcases Py.forEach as associateAdd t with ⟨r, t'⟩
  cases r <;> rfl

/-- A successful `associate`. -/
theorem associate_ok {asap : Asap} {as : List Addr} {t : AssocTable} (h : (associate asap as t).1 = .ok ()) :
    ∃ t1, Py.forEach as associateAdd t = (.ok (), t1) ∧
      associate asap as t = (.ok (), (associateAppend asap as t1).rebuild) := by
  rw [associate_eq] at h ⊢
  rcases hf : Py.forEach as associateAdd t with ⟨r, t'⟩
  rw [hf] at h
  cases r with
  | error e => simp at h
  | ok u => exact ⟨t', rfl, rfl⟩

/-- A failing `associate`. -/
theorem associate_error {asap : Asap} {as : List Addr} {t : AssocTable} {e : Err}
    (h : (associate asap as t).1 = .error e) :
    Py.forEach as associateAdd t = (.error e, (associate asap as t).2) ∧ e = .addressTable := by
  rw [associate_eq] at h ⊢
  rcases hf : Py.forEach as associateAdd t with ⟨r, t'⟩
  rw [hf] at h
  cases r with
  | error e' =>
    simp only [Except.error.injEq] at h
    subst h
    exact ⟨rfl, associateAdds_error as t e' (by rw [hf])⟩
  | ok u => simp at h

/-! ## disassociate -/

/-- What one round of `disassociate` does. -/
theorem disassociateOne_cases (asap : Asap) (a : Addr) (t : AssocTable) :
    let r := disassociateOne asap a t
    r.2.at_.ind = t.at_.ind ∧ r.2.at_.maxSize = t.at_.maxSize ∧ r.2.tsapAsaps = t.tsapAsaps ∧
    r.2.at_.gas.length ≤ t.at_.gas.length ∧
    ((t.at_.gas.map Addr.fs).Nodup → (r.2.at_.gas.map Addr.fs).Nodup) ∧
    (r.1 = .ok () →
      (a.fs = t.at_.ind.fs ∧ r.2.at_ = t.at_ ∨
        a.fs ≠ t.at_.ind.fs ∧ a.fs ∈ t.at_.gas.map Addr.fs ∧
          (r.2.at_.gas.map Addr.fs).Perm ((t.at_.gas.map Addr.fs).erase a.fs)) ∧
      ∃ l l', dictGet Asap.eq t.asapAddrs asap = some l ∧ removeFirst l a = some l' ∧
        r.2.asapAddrs = dictSet Asap.eq t.asapAddrs asap l') := by
  unfold disassociateOne
  simp only [Py.bind]
  -- the address table part
  have key : ∀ (t1 : AssocTable), t1.asapAddrs = t.asapAddrs → t1.tsapAsaps = t.tsapAsaps →
      t1.at_.ind = t.at_.ind → t1.at_.maxSize = t.at_.maxSize → t1.at_.gas.length ≤ t.at_.gas.length →
      ((t.at_.gas.map Addr.fs).Nodup → (t1.at_.gas.map Addr.fs).Nodup) →
      (a.fs = t.at_.ind.fs ∧ t1.at_ = t.at_ ∨
        a.fs ≠ t.at_.ind.fs ∧ a.fs ∈ t.at_.gas.map Addr.fs ∧
          (t1.at_.gas.map Addr.fs).Perm ((t.at_.gas.map Addr.fs).erase a.fs)) →
      ∀ r, r = (match dictGet Asap.eq t1.asapAddrs asap with
        | none => ((.error .keyError, t1) : Except Err Unit × AssocTable)
        | some l =>
          match AddressTable.removeFirst l a with
          | none => (.error .valueError, t1)
          | some l' => (.ok (), { t1 with asapAddrs := dictSet Asap.eq t1.asapAddrs asap l' })) →
      r.2.at_.ind = t.at_.ind ∧ r.2.at_.maxSize = t.at_.maxSize ∧ r.2.tsapAsaps = t.tsapAsaps ∧
      r.2.at_.gas.length ≤ t.at_.gas.length ∧
      ((t.at_.gas.map Addr.fs).Nodup → (r.2.at_.gas.map Addr.fs).Nodup) ∧
      (r.1 = .ok () →
        (a.fs = t.at_.ind.fs ∧ r.2.at_ = t.at_ ∨
          a.fs ≠ t.at_.ind.fs ∧ a.fs ∈ t.at_.gas.map Addr.fs ∧
            (r.2.at_.gas.map Addr.fs).Perm ((t.at_.gas.map Addr.fs).erase a.fs)) ∧
        ∃ l l', dictGet Asap.eq t.asapAddrs asap = some l ∧ removeFirst l a = some l' ∧
          r.2.asapAddrs = dictSet Asap.eq t.asapAddrs asap l') := by
    intro t1 h1 h2 h3 h4 h5 h6 h7 r hr
    rw [h1] at hr
    cases hd : dictGet Asap.eq t.asapAddrs asap with
    | none =>
      rw [hd] at hr
      subst hr
      exact ⟨h3, h4, h2, h5, h6, fun h => by simp at h⟩
    | some l =>
      rw [hd] at hr
      simp only at hr
      cases hl : AddressTable.removeFirst l a with
      | none =>
        rw [hl] at hr
        subst hr
        exact ⟨h3, h4, h2, h5, h6, fun h => by simp at h⟩
      | some l' =>
        rw [hl] at hr
        subst hr
        exact ⟨h3, h4, h2, h5, h6, fun _ => ⟨h7, l, l', rfl, hl, rfl⟩⟩
  by_cases hind : a.fs = t.at_.ind.fs
  · have hb : (!(a.eq t.ind)) = false := by simp [Addr.eq, AssocTable.ind, hind]
    simp only [hb, Bool.false_eq_true, if_false]
    exact key t rfl rfl rfl rfl (le_refl _) (fun h => h) (Or.inl ⟨hind, rfl⟩) _ rfl
  · have hb : (!(a.eq t.ind)) = true := by simp [Addr.eq, AssocTable.ind, hind]
    simp only [hb, if_true]
    unfold onAddressTable
    rcases remove_cases a t.at_ with ⟨e, -⟩ | ⟨l, e, hr, hm⟩
    · rw [e]
      exact ⟨rfl, rfl, rfl, le_refl _, fun h => h, fun h => by simp at h⟩
    · rw [e]
      obtain ⟨h1, -, h3⟩ := removeFirst_some hr
      have hp : ((sort l).map Addr.fs).Perm ((t.at_.gas.map Addr.fs).erase a.fs) := h1 ▸ sort_fs_perm l
      refine key { t with at_ := { t.at_ with gas := sort l } } rfl rfl rfl rfl ?_ (fun hn => ?_)
        (Or.inr ⟨hind, hm, hp⟩) _ rfl
      · simp only [sort_length]
        exact h3.length_le
      · exact hp.nodup_iff.2 (hn.erase _)

theorem disassociates_frame (asap : Asap) (as : List Addr) (t : AssocTable) :
    let t' := (Py.forEach as (disassociateOne asap) t).2
    t'.at_.ind = t.at_.ind ∧ t'.at_.maxSize = t.at_.maxSize ∧ t'.at_.gas.length ≤ t.at_.gas.length ∧
    ((t.at_.gas.map Addr.fs).Nodup → (t'.at_.gas.map Addr.fs).Nodup) := by
  induction as generalizing t with
  | nil => exact ⟨rfl, rfl, le_refl _, fun h => h⟩
  | cons a as ih =>
    obtain ⟨h1, h2, -, h4, h5, -⟩ := disassociateOne_cases asap a t
    simp only [Py.forEach, Py.bind]
    rcases hx : disassociateOne asap a t with ⟨r, t'⟩
    rw [hx] at h1 h2 h4 h5
    simp only at h1 h2 h4 h5
    cases r with
    | error e => exact ⟨h1, h2, h4, h5⟩
    | ok u =>
      obtain ⟨g1, g2, g3, g4⟩ := ih t'
      exact ⟨g1.trans h1, g2.trans h2, le_trans g3 h4, fun h => g4 (h5 h)⟩

theorem disassociate_eq (asap : Asap) (as : List Addr) (t : AssocTable) :
    disassociate asap as t =
      match Py.forEach as (disassociateOne asap) t with
      | (.ok _, t') => (.ok (), t'.rebuild)
      | (.error e, t') => (.error e, t') := by
  unfold disassociate Py.bind Py.modify
  rcases Py.forEach as (disassociateOne asap) t with ⟨r, t'⟩
  cases r <;> rfl

theorem disassociate_ok {asap : Asap} {as : List Addr} {t : AssocTable} (h : (disassociate asap as t).1 = .ok ()) :
    ∃ t1, Py.forEach as (disassociateOne asap) t = (.ok (), t1) ∧
      disassociate asap as t = (.ok (), t1.rebuild) := by
  rw [disassociate_eq] at h ⊢
  rcases hf : Py.forEach as (disassociateOne asap) t with ⟨r, t'⟩
  rw [hf] at h
  cases r with
  | error e => simp at h
  | ok u => exact ⟨t', rfl, rfl⟩

theorem forEach_cons_ok {σ α : Type} {f : α → Py σ Unit} {a : α} {as : List α} {s s' : σ}
    (h : Py.forEach (a :: as) f s = (.ok (), s')) :
    ∃ s1, f a s = (.ok (), s1) ∧ Py.forEach as f s1 = (.ok (), s') := by
  simp only [Py.forEach, Py.bind] at h
  rcases hx : f a s with ⟨r, s1⟩
  rw [hx] at h
  cases r with
  | error e => simp at h
  | ok u => exact ⟨s1, rfl, h⟩

theorem specDisassociate_one (d : List (Asap × List Addr)) (asap : Asap) (a : Addr) (l l' : List Addr)
    (hd : dictGet Asap.eq d asap = some l) (hl : removeFirst l a = some l') :
    (dictSet Asap.eq d asap l').map (fun p => (p.1.value, p.2.map Addr.fs)) =
      Spec.disassociate (d.map fun p => (p.1.value, p.2.map Addr.fs)) asap.value [a.fs] := by
  induction d with
  | nil => simp [dictGet] at hd
  | cons p d ih =>
    obtain ⟨k, v⟩ := p
    simp only [dictGet, dictSet, List.map_cons, Spec.disassociate] at hd ⊢
    by_cases h : k.value = asap.value
    · have hb : Asap.eq k asap = true := by simpa [Asap.eq] using h
      rw [if_pos hb] at hd ⊢
      rw [if_pos h]
      simp only [Option.some.injEq] at hd
      subst hd
      simp [(removeFirst_some hl).1]
    · have hb : ¬ Asap.eq k asap = true := by simpa [Asap.eq] using h
      rw [if_neg hb] at hd ⊢
      rw [if_neg h, List.map_cons, ih hd]

theorem spec_disassociate_nil (d : Spec.Assoc) (v : Int) : Spec.disassociate d v [] = d := by
  induction d with
  | nil => rfl
  | cons p d ih =>
    obtain ⟨w, l⟩ := p
    simp only [Spec.disassociate, List.foldl_nil, ih]
    split_ifs <;> rfl

theorem spec_disassociate_cons (d : Spec.Assoc) (v : Int) (a : BitVec 16) (as : List (BitVec 16)) :
    Spec.disassociate d v (a :: as) = Spec.disassociate (Spec.disassociate d v [a]) v as := by
  induction d with
  | nil => rfl
  | cons p d ih =>
    obtain ⟨w, l⟩ := p
    simp only [Spec.disassociate]
    split_ifs with h
    · simp [Spec.disassociate, h]
    · simp only [Spec.disassociate, h, if_false, ih]

theorem disassociates_absDict {asap : Asap} {as : List Addr} {t t' : AssocTable}
    (h : Py.forEach as (disassociateOne asap) t = (.ok (), t')) :
    t'.absDict = Spec.disassociate t.absDict asap.value (as.map Addr.fs) := by
  induction as generalizing t with
  | nil =>
    simp only [Py.forEach, Py.pure, Prod.mk.injEq, true_and] at h
    subst h
    rw [List.map_nil, spec_disassociate_nil]
  | cons a as ih =>
    obtain ⟨t1, h1, h2⟩ := forEach_cons_ok h
    obtain ⟨-, -, -, -, -, hok⟩ := disassociateOne_cases asap a t
    rw [h1] at hok
    obtain ⟨-, l, l', hd, hl, he⟩ := hok rfl
    simp only at he
    rw [ih h2, List.map_cons, spec_disassociate_cons]
    congr 1
    unfold absDict
    rw [he]
    exact specDisassociate_one _ asap a l l' hd hl

end AssocTable
end Knx
