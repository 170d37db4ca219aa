import Verif.Lemmas.Dict
import Mathlib.Data.List.Count
import Mathlib.Data.List.Perm.Basic
import Mathlib.Data.List.Nodup
import Mathlib.Tactic.Ring
import Mathlib.Tactic.Linarith

/-! # Lemmas about the address and association tables -/

namespace Knx
namespace AddressTable

theorem insert_perm (a : Addr) (l : List Addr) : (insert a l).Perm (a :: l) := by
  induction l with
  | nil => exact List.Perm.refl _
  | cons b l ih =>
    simp only [insert]
    split_ifs
    · exact List.Perm.refl _
    · exact (ih.cons b).trans (List.Perm.swap a b l)

theorem sort_perm (l : List Addr) : (sort l).Perm l := by
  induction l with
  | nil => exact List.Perm.refl _
  | cons a l ih => exact (insert_perm a _).trans (ih.cons a)

theorem insert_sorted (a : Addr) {l : List Addr} (h : l.Pairwise fun a b => a.fs.toNat ≤ b.fs.toNat) :
    (insert a l).Pairwise fun a b => a.fs.toNat ≤ b.fs.toNat := by
  induction l with
  | nil => simp [insert]
  | cons b l ih =>
    simp only [insert]
    rw [List.pairwise_cons] at h
    split_ifs with hab
    · rw [List.pairwise_cons]
      refine ⟨?_, List.pairwise_cons.2 h⟩
      intro c hc
      rcases List.mem_cons.1 hc with rfl | hc
      · exact hab
      · exact le_trans hab (h.1 c hc)
    · rw [List.pairwise_cons]
      refine ⟨?_, ih h.2⟩
      intro c hc
      rcases List.mem_cons.1 ((insert_perm a l).mem_iff.1 hc) with rfl | hc
      · omega
      · exact h.1 c hc

theorem sort_sorted (l : List Addr) : (sort l).Pairwise fun a b => a.fs.toNat ≤ b.fs.toNat := by
  induction l with
  | nil => exact List.Pairwise.nil
  | cons a l ih => exact insert_sorted a ih

theorem sort_length (l : List Addr) : (sort l).length = l.length := (sort_perm l).length_eq

theorem sort_fs_perm (l : List Addr) : ((sort l).map Addr.fs).Perm (l.map Addr.fs) := (sort_perm l).map _

theorem eq_iff (a b : Addr) : a.eq b = true ↔ a.fs = b.fs := by simp [Addr.eq]

theorem mem_iff (l : List Addr) (a : Addr) : mem l a = true ↔ a.fs ∈ l.map Addr.fs := by
  simp only [mem, List.any_eq_true, eq_iff, List.mem_map]

theorem index_congr (l : List Addr) {a b : Addr} (h : a.fs = b.fs) : index l a = index l b := by
  induction l with
  | nil => rfl
  | cons x l ih => simp [index, Addr.eq, h, ih]

theorem index_some {l : List Addr} {a : Addr} {i : Nat} (h : index l a = some i) :
    ∃ b, l[i]? = some b ∧ b.fs = a.fs := by
  induction l generalizing i with
  | nil => simp [index] at h
  | cons x l ih =>
    simp only [index] at h
    by_cases hx : x.eq a = true
    · rw [if_pos hx] at h
      simp only [Option.some.injEq] at h
      subst h
      exact ⟨x, rfl, (eq_iff _ _).1 hx⟩
    · rw [if_neg hx] at h
      cases hi : index l a with
      | none => rw [hi] at h; simp at h
      | some j =>
        rw [hi] at h
        simp only [Option.map_some, Option.some.injEq] at h
        subst h
        obtain ⟨b, hb, he⟩ := ih hi
        exact ⟨b, by simpa using hb, he⟩

theorem index_none {l : List Addr} {a : Addr} : index l a = none ↔ a.fs ∉ l.map Addr.fs := by
  induction l with
  | nil => simp [index]
  | cons x l ih =>
    simp only [index, List.map_cons, List.mem_cons, not_or]
    by_cases hx : x.fs = a.fs
    · simp [(eq_iff x a).2 hx, hx]
    · have : ¬ x.eq a = true := fun e => hx ((eq_iff _ _).1 e)
      simp only [this, Bool.false_eq_true, if_false, Option.map_eq_none_iff, ih]
      exact ⟨fun h => ⟨fun e => hx e.symm, h⟩, fun h => h.2⟩

/-- The first position holding an equal address: nothing before it is equal. -/
theorem index_first {l : List Addr} {a : Addr} {i : Nat} (h : index l a = some i) :
    ∀ j < i, ∀ b, l[j]? = some b → b.fs ≠ a.fs := by
  induction l generalizing i with
  | nil => simp [index] at h
  | cons x l ih =>
    simp only [index] at h
    by_cases hx : x.eq a = true
    · rw [if_pos hx] at h
      simp only [Option.some.injEq] at h
      subst h
      intro j hj
      omega
    · rw [if_neg hx] at h
      cases hi : index l a with
      | none => rw [hi] at h; simp at h
      | some k =>
        rw [hi] at h
        simp only [Option.map_some, Option.some.injEq] at h
        subst h
        intro j hj b hb
        cases j with
        | zero =>
          simp only [List.getElem?_cons_zero, Option.some.injEq] at hb
          subst hb
          exact fun e => hx ((eq_iff _ _).2 e)
        | succ j => exact ih hi j (by omega) b (by simpa using hb)

theorem removeFirst_none {l : List Addr} {a : Addr} : removeFirst l a = none ↔ a.fs ∉ l.map Addr.fs := by
  induction l with
  | nil => simp [removeFirst]
  | cons x l ih =>
    simp only [removeFirst, List.map_cons, List.mem_cons, not_or]
    by_cases hx : x.fs = a.fs
    · simp [(eq_iff x a).2 hx, hx]
    · have : ¬ x.eq a = true := fun e => hx ((eq_iff _ _).1 e)
      simp only [this, Bool.false_eq_true, if_false, Option.map_eq_none_iff, ih]
      exact ⟨fun h => ⟨fun e => hx e.symm, h⟩, fun h => h.2⟩

theorem removeFirst_some {l l' : List Addr} {a : Addr} (h : removeFirst l a = some l') :
    l'.map Addr.fs = (l.map Addr.fs).erase a.fs ∧ a.fs ∈ l.map Addr.fs ∧ l'.Sublist l := by
  induction l generalizing l' with
  | nil => simp [removeFirst] at h
  | cons x l ih =>
    simp only [removeFirst] at h
    by_cases hx : x.fs = a.fs
    · rw [if_pos ((eq_iff x a).2 hx)] at h
      simp only [Option.some.injEq] at h
      subst h
      simp [hx]
    · have hne : ¬ x.eq a = true := fun e => hx ((eq_iff _ _).1 e)
      rw [if_neg hne] at h
      cases hi : removeFirst l a with
      | none => rw [hi] at h; simp at h
      | some k =>
        rw [hi] at h
        simp only [Option.map_some, Option.some.injEq] at h
        subst h
        obtain ⟨h1, h2, h3⟩ := ih hi
        refine ⟨?_, List.mem_cons_of_mem _ h2, h3.cons_cons x⟩
        rw [List.map_cons, List.map_cons, List.erase_cons_tail (by simpa using hx), h1]

theorem getTsap_congr (t : AddressTable) {a b : Addr} (h : a.fs = b.fs) : t.getTsap a = t.getTsap b := by
  unfold getTsap
  rw [index_congr t.gas h]
  simp [Addr.eq, h]

theorem getTsap_none {t : AddressTable} {a : Addr} :
    t.getTsap a = none ↔ a.fs ∉ t.gas.map Addr.fs ∧ a.fs ≠ t.ind.fs := by
  unfold getTsap
  cases h : index t.gas a with
  | none =>
    have := index_none.1 h
    simp only [this, not_false_eq_true, true_and]
    by_cases he : a.fs = t.ind.fs
    · simp [Addr.eq, he]
    · simp [Addr.eq, he]
  | some i =>
    have : ¬ (a.fs ∉ t.gas.map Addr.fs) := by rw [← index_none, h]; simp
    simp only [this, false_and, iff_false]
    simp

theorem getTsap_getAddress {t : AddressTable} {a : Addr} {n : Nat} (h : t.getTsap a = some n) :
    ∃ b, t.getAddress n = .ok b ∧ b.fs = a.fs := by
  unfold getTsap at h
  cases hi : index t.gas a with
  | none =>
    rw [hi] at h
    simp only at h
    split_ifs at h with he
    simp only [Option.some.injEq] at h
    subst h
    exact ⟨t.ind, by simp [getAddress], ((eq_iff _ _).1 he).symm⟩
  | some i =>
    rw [hi] at h
    simp only [Option.some.injEq] at h
    subst h
    obtain ⟨b, hb, he⟩ := index_some hi
    refine ⟨b, ?_, he⟩
    unfold getAddress
    have h1 : ((i + 1 : Nat) : Int) ≥ 1 := by omega
    have h2 : (((i + 1 : Nat) : Int) - 1).toNat = i := by omega
    rw [if_pos h1, h2, hb]

theorem getTsap_inj {t : AddressTable} {a b : Addr} (h : t.getTsap a = t.getTsap b) (hn : t.getTsap a ≠ none) :
    a.fs = b.fs := by
  cases ha : t.getTsap a with
  | none => exact absurd ha hn
  | some n =>
    obtain ⟨x, hx, hxa⟩ := getTsap_getAddress ha
    obtain ⟨y, hy, hyb⟩ := getTsap_getAddress (h ▸ ha : t.getTsap b = some n)
    rw [hx] at hy
    simp only [Except.ok.injEq] at hy
    rw [← hxa, ← hyb, hy]

theorem add_cases (a : Addr) (t : AddressTable) :
    (add a t = (.ok (), { t with gas := sort (t.gas ++ [a]) }) ∧ t.gas.length < t.maxSize ∧
      ¬ (a.fs ∈ t.gas.map Addr.fs ∧ a.fs = t.ind.fs)) ∨
    (add a t = (.error .addressTable, t) ∧ t.maxSize ≤ t.gas.length ∧
      ¬ (a.fs ∈ t.gas.map Addr.fs ∧ a.fs = t.ind.fs)) ∨
    (add a t = (.ok (), t) ∧ a.fs ∈ t.gas.map Addr.fs ∧ a.fs = t.ind.fs) := by
  unfold add
  by_cases h : a.fs ∈ t.gas.map Addr.fs ∧ a.fs = t.ind.fs
  · right; right
    have h1 := (mem_iff t.gas a).2 h.1
    have h2 := (eq_iff a t.ind).2 h.2
    exact ⟨by simp [h1, h2], h⟩
  · have hc : (!(mem t.gas a) || !(a.eq t.ind)) = true := by
      by_contra hc
      simp only [Bool.or_eq_true, Bool.not_eq_true', not_or, Bool.not_eq_false] at hc
      exact h ⟨(mem_iff _ _).1 hc.1, (eq_iff _ _).1 hc.2⟩
    rw [if_pos hc]
    by_cases hl : t.gas.length ≥ t.maxSize
    · right; left
      rw [if_pos hl]
      exact ⟨rfl, hl, h⟩
    · left
      rw [if_neg hl]
      exact ⟨rfl, by omega, h⟩

theorem remove_cases (a : Addr) (t : AddressTable) :
    (remove a t = (.error .valueError, t) ∧ a.fs ∉ t.gas.map Addr.fs) ∨
    (∃ l, remove a t = (.ok (), { t with gas := sort l }) ∧ removeFirst t.gas a = some l ∧
      a.fs ∈ t.gas.map Addr.fs) := by
  unfold remove
  cases h : removeFirst t.gas a with
  | none => exact Or.inl ⟨rfl, removeFirst_none.1 h⟩
  | some l => exact Or.inr ⟨l, rfl, rfl, (removeFirst_some h).2.1⟩

end AddressTable
end Knx
