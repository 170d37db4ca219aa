import Verif.Lemmas.Tables
import Verif.Spec.Tables

/-! # C05, C06, C07, C13: the address table -/

namespace Knx
open AddressTable

/-! ## C05 TSAP numbering is a faithful, sorted index -/

/-- C05: whatever was added and removed, the addresses are in ascending order. -/
theorem c05_sorted (ia : Addr) (as : List Addr) (max : Nat) (ops : List AddressTable.Op) :
    (((AddressTable.init ia as max).afterAll ops).gas).Pairwise fun a b => a.fs.toNat ≤ b.fs.toNat := by
  have key : ∀ (ops : List AddressTable.Op) (t : AddressTable),
      t.gas.Pairwise (fun a b => a.fs.toNat ≤ b.fs.toNat) →
      ((t.afterAll ops).gas).Pairwise fun a b => a.fs.toNat ≤ b.fs.toNat := by
    intro ops
    induction ops with
    | nil => intro t h; exact h
    | cons op ops ih =>
      intro t h
      apply ih
      cases op with
      | add a =>
        rcases add_cases a t with ⟨e, -⟩ | ⟨e, -⟩ | ⟨e, -⟩ <;> simp only [AddressTable.after, e]
        · exact sort_sorted _
        · exact h
        · exact h
      | remove a =>
        rcases remove_cases a t with ⟨e, -⟩ | ⟨l, e, -⟩ <;> simp only [AddressTable.after, e]
        · exact h
        · exact sort_sorted _
      | setInd a => exact h
  exact key ops _ (sort_sorted as)

/-- C05: every address in the table resolves to a TSAP between 1 and the table size, and asking for the address of
that TSAP gives an equal address back. This holds for every table, so in particular after any history. -/
theorem c05_resolve (t : AddressTable) (a : Addr) (h : a ∈ t.gas) :
    ∃ n b, t.getTsap a = some n ∧ 1 ≤ n ∧ n ≤ t.gas.length ∧ t.getAddress n = .ok b ∧ b.fs = a.fs := by
  have hm : a.fs ∈ t.gas.map Addr.fs := List.mem_map_of_mem h
  cases hi : index t.gas a with
  | none => exact absurd hm (index_none.1 hi)
  | some i =>
    have ht : t.getTsap a = some (i + 1) := by simp [getTsap, hi]
    obtain ⟨b, hb, he⟩ := getTsap_getAddress ht
    obtain ⟨x, hx, -⟩ := index_some hi
    have := (List.getElem?_eq_some_iff.1 hx).1
    exact ⟨i + 1, b, ht, by omega, by omega, hb, he⟩

/-- C05: every TSAP handed out leads back to an address equal to the one it was handed out for; so different
addresses never share a TSAP. -/
theorem c05_faithful (t : AddressTable) (a b : Addr) (n : Nat) (ha : t.getTsap a = some n) :
    (∃ x, t.getAddress n = .ok x ∧ x.fs = a.fs) ∧ (t.getTsap b = some n → a.fs = b.fs) :=
  ⟨getTsap_getAddress ha, fun hb => getTsap_inj (ha.trans hb.symm) (by rw [ha]; simp)⟩

/-- C05: a TSAP in the range 1..size is never rejected and yields an address of the table, any larger one raises
`IndexError`, anything below 1 is the individual address. -/
theorem c05_getAddress (t : AddressTable) (n : Int) :
    (1 ≤ n → n ≤ t.gas.length → ∃ a ∈ t.gas, t.getAddress n = .ok a) ∧
    (n > t.gas.length → 1 ≤ n → t.getAddress n = .error .indexError) ∧
    (n < 1 → t.getAddress n = .ok t.ind) := by
  refine ⟨fun h1 h2 => ?_, fun h1 h2 => ?_, fun h => ?_⟩
  · have hlt : (n - 1).toNat < t.gas.length := by omega
    refine ⟨t.gas[(n - 1).toNat], List.getElem_mem hlt, ?_⟩
    unfold getAddress
    rw [if_pos h1, List.getElem?_eq_getElem hlt]
  · have hge : t.gas.length ≤ (n - 1).toNat := by omega
    unfold getAddress
    rw [if_pos h2, List.getElem?_eq_none hge]
  · unfold getAddress
    rw [if_neg (by omega)]

/-- C05: what is in the table: a successful `add` adds exactly the given address (unless it equals the individual
address and is present already), a successful `remove` removes exactly one equal address, and a failing call
changes nothing. -/
theorem c05_content (t : AddressTable) (a : Addr) :
    ((add a t).1 = .ok () → ((add a t).2.gas.map Addr.fs).Perm (a.fs :: t.gas.map Addr.fs) ∨
      ((add a t).2 = t ∧ a.fs ∈ t.gas.map Addr.fs ∧ a.fs = t.ind.fs)) ∧
    ((remove a t).1 = .ok () → (a.fs :: (remove a t).2.gas.map Addr.fs).Perm (t.gas.map Addr.fs)) ∧
    (∀ e, (add a t).1 = .error e → (add a t).2 = t) ∧
    (∀ e, (remove a t).1 = .error e → (remove a t).2 = t) := by
  refine ⟨?_, ?_, ?_, ?_⟩
  · rcases add_cases a t with ⟨e, -⟩ | ⟨e, -⟩ | ⟨e, h1, h2⟩ <;> rw [e]
    · intro _
      left
      refine (sort_fs_perm _).trans ?_
      rw [List.map_append]
      exact List.perm_append_singleton _ _
    · intro h; simp at h
    · intro _
      right
      exact ⟨rfl, h1, h2⟩
  · rcases remove_cases a t with ⟨e, -⟩ | ⟨l, e, hr, -⟩ <;> rw [e]
    · intro h; simp at h
    · intro _
      obtain ⟨h1, h2, -⟩ := removeFirst_some hr
      have hp : (List.map Addr.fs (sort l)).Perm ((t.gas.map Addr.fs).erase a.fs) := h1 ▸ sort_fs_perm l
      exact (hp.cons a.fs).trans (List.perm_cons_erase h2).symm
  · rcases add_cases a t with ⟨e, -⟩ | ⟨e, -⟩ | ⟨e, -⟩ <;> rw [e] <;> simp
  · rcases remove_cases a t with ⟨e, -⟩ | ⟨l, e, -⟩ <;> rw [e] <;> simp

/-- A table for the examples: three addresses given out of order, one is added, one removed. -/
def exTable : AddressTable :=
  (AddressTable.init ⟨0, 0x1004⟩ [⟨1, 0x0E89⟩, ⟨2, 0x0E02⟩, ⟨3, 0x0E21⟩] 5).afterAll
    [.add ⟨4, 0x0E03⟩, .remove ⟨5, 0x0E21⟩, .remove ⟨6, 0x7777⟩]

example : exTable.gas.map Addr.fs = [0x0E02, 0x0E03, 0x0E89] := by decide
example : ∃ n b, exTable.getTsap ⟨1, 0x0E89⟩ = some n ∧ 1 ≤ n ∧ n ≤ exTable.gas.length ∧
    exTable.getAddress n = .ok b ∧ b.fs = 0x0E89 := c05_resolve exTable ⟨1, 0x0E89⟩ (by decide)
example : exTable.getTsap ⟨9, 0x0E03⟩ = some 2 := by decide
example : exTable.getAddress 2 = .ok ⟨4, 0x0E03⟩ := by decide
example : (add ⟨7, 0x0F00⟩ exTable).1 = .ok () := by decide

/-! ## C06 Address table capacity (address table part; see `AssocTables` for associations) -/

theorem after_length (t : AddressTable) (op : AddressTable.Op) :
    (t.after op).maxSize = t.maxSize ∧ (t.after op).gas.length ≤ max t.gas.length t.maxSize := by
  cases op with
  | add a =>
    rcases add_cases a t with ⟨e, h, -⟩ | ⟨e, -⟩ | ⟨e, -⟩ <;> simp only [AddressTable.after, e]
    · refine ⟨trivial, ?_⟩
      rw [sort_length, List.length_append]
      simp only [List.length_singleton]
      omega
    · exact ⟨trivial, le_max_left _ _⟩
    · exact ⟨trivial, le_max_left _ _⟩
  | remove a =>
    rcases remove_cases a t with ⟨e, -⟩ | ⟨l, e, hr, -⟩ <;> simp only [AddressTable.after, e]
    · exact ⟨trivial, le_max_left _ _⟩
    · refine ⟨trivial, ?_⟩
      rw [sort_length]
      exact le_trans (removeFirst_some hr).2.2.length_le (le_max_left _ _)
  | setInd a => exact ⟨rfl, le_max_left _ _⟩

/-- C06: no history of calls on the address table makes it grow beyond the larger of its initial and its maximal
size. -/
theorem c06_capacity (ia : Addr) (as : List Addr) (max_ : Nat) (ops : List AddressTable.Op) :
    ((AddressTable.init ia as max_).afterAll ops).gas.length ≤ max as.length max_ := by
  have key : ∀ (ops : List AddressTable.Op) (t : AddressTable),
      (t.afterAll ops).gas.length ≤ max t.gas.length t.maxSize := by
    intro ops
    induction ops with
    | nil => intro t; exact le_max_left _ _
    | cons op ops ih =>
      intro t
      have h := after_length t op
      have := ih (t.after op)
      simp only [AddressTable.afterAll, List.foldl_cons] at this ⊢
      rw [h.1] at this
      omega
  have := key ops (AddressTable.init ia as max_)
  simpa [AddressTable.init, sort_length] using this

/-- C06: an `add` at capacity raises `AddressTableException` and changes nothing; the only exception is an address
that equals the individual address and is in the table already, which is ignored silently. -/
theorem c06_add_full_partial (t : AddressTable) (a : Addr) (h : t.maxSize ≤ t.gas.length) :
    (add a t = (.error .addressTable, t) ∧ ¬ (a.fs ∈ t.gas.map Addr.fs ∧ a.fs = t.ind.fs)) ∨
    (add a t = (.ok (), t) ∧ a.fs ∈ t.gas.map Addr.fs ∧ a.fs = t.ind.fs) := by
  rcases add_cases a t with ⟨-, h', -⟩ | ⟨e, -, h2⟩ | ⟨e, h1, h2⟩
  · omega
  · exact Or.inl ⟨e, h2⟩
  · exact Or.inr ⟨e, h1, h2⟩

/-- C06's second clause is false as stated: an `add` at capacity of an address that equals the individual address and is
in the table does not raise. -/
theorem c06_refuted : ∃ (t : AddressTable) (a : Addr), t.maxSize ≤ t.gas.length ∧ (add a t).1 = .ok () :=
  ⟨AddressTable.init ⟨0, 0x1004⟩ [⟨1, 0x1004⟩] 1, ⟨2, 0x1004⟩, by decide, by decide⟩

/-- C06's second clause is false of every such address and table. -/
theorem c06_ignored_refuted (t : AddressTable) (a : Addr) (h : t.maxSize ≤ t.gas.length) (hm : a.fs ∈ t.gas.map Addr.fs)
    (hi : a.fs = t.ind.fs) : add a t = (.ok (), t) := by
  rcases c06_add_full_partial t a h with ⟨-, h'⟩ | ⟨h', -⟩
  · exact absurd ⟨hm, hi⟩ h'
  · exact h'

example : add ⟨2, 0x1004⟩ (AddressTable.init ⟨0, 0x1004⟩ [⟨1, 0x1004⟩] 1) = (.ok (), AddressTable.init ⟨0, 0x1004⟩ [⟨1, 0x1004⟩] 1) :=
  c06_ignored_refuted _ _ (by decide) (by decide) (by decide)

/-- C06: below capacity an `add` never raises. -/
theorem c06_add_room (t : AddressTable) (a : Addr) (h : t.gas.length < t.maxSize) : (add a t).1 = .ok () := by
  rcases add_cases a t with ⟨e, -⟩ | ⟨-, h', -⟩ | ⟨e, -⟩
  · rw [e]
  · omega
  · rw [e]

example : add ⟨9, 0x0F01⟩ (AddressTable.init ⟨0, 0x1004⟩ [⟨1, 1⟩, ⟨2, 2⟩] 2) =
    (.error .addressTable, AddressTable.init ⟨0, 0x1004⟩ [⟨1, 1⟩, ⟨2, 2⟩] 2) := by
  rcases c06_add_full_partial (AddressTable.init ⟨0, 0x1004⟩ [⟨1, 1⟩, ⟨2, 2⟩] 2) ⟨9, 0x0F01⟩ (by decide) with h | h
  · exact h.1
  · exact absurd h.2.2 (by decide)

/-! ## C07, direct calls of `add` -/

/-- C07 is false for direct calls of `AddressTable.add`: a table without duplicates gets one, because the guard of
`add` lets an address pass that is in the table but is not the individual address. -/
theorem c07_add_duplicates :
    ∃ (t : AddressTable) (a : Addr), (t.gas.map Addr.fs).Nodup ∧ (add a t).1 = .ok () ∧
      ¬ ((add a t).2.gas.map Addr.fs).Nodup :=
  ⟨AddressTable.init ⟨0, 0x1004⟩ [⟨1, 0x0E02⟩] 5, ⟨2, 0x0E02⟩, by decide, by decide, by decide⟩

/-- C07, what direct calls do guarantee: an address that is not in the table yet (or equals the individual address)
never becomes a duplicate, and removals never create one. -/
theorem c07_add_partial (t : AddressTable) (a : Addr) (h : (t.gas.map Addr.fs).Nodup)
    (ha : a.fs ∉ t.gas.map Addr.fs ∨ a.fs = t.ind.fs) : ((add a t).2.gas.map Addr.fs).Nodup := by
  rcases add_cases a t with ⟨e, -, hn⟩ | ⟨e, -⟩ | ⟨e, -⟩ <;> rw [e]
  · have hm : a.fs ∉ t.gas.map Addr.fs := by
      rcases ha with ha | ha
      · exact ha
      · exact fun hm => hn ⟨hm, ha⟩
    refine ((sort_fs_perm _).nodup_iff).2 ?_
    rw [List.map_append, List.nodup_append]
    refine ⟨h, by simp, ?_⟩
    intro x hx y hy
    simp only [List.map_cons, List.map_nil, List.mem_singleton] at hy
    subst hy
    exact fun e => hm (e ▸ hx)
  · exact h
  · exact h

theorem remove_nodup (t : AddressTable) (a : Addr) (h : (t.gas.map Addr.fs).Nodup) :
    ((remove a t).2.gas.map Addr.fs).Nodup := by
  rcases remove_cases a t with ⟨e, -⟩ | ⟨l, e, hr, -⟩ <;> rw [e]
  · exact h
  · refine ((sort_fs_perm _).nodup_iff).2 ?_
    rw [(removeFirst_some hr).1]
    exact h.erase _

example : ((add ⟨2, 0x0E01⟩ (AddressTable.init ⟨0, 0x1004⟩ [⟨1, 0x0E02⟩] 5)).2.gas.map Addr.fs).Nodup :=
  c07_add_partial _ _ (by decide) (Or.inl (by decide))

/-! ## C13 TSAP 0 means the own individual address -/

/-- C13: the TSAP of an address is 0 exactly for the individual address not registered as group address, absent
exactly for an unknown address, and at least 1 otherwise. -/
theorem c13_tsap (t : AddressTable) (a : Addr) :
    (t.getTsap a = some 0 ↔ a.fs = t.ind.fs ∧ a.fs ∉ t.gas.map Addr.fs) ∧
    (t.getTsap a = none ↔ a.fs ≠ t.ind.fs ∧ a.fs ∉ t.gas.map Addr.fs) ∧
    (a.fs ∈ t.gas.map Addr.fs → ∃ n, t.getTsap a = some (n + 1)) := by
  refine ⟨?_, by rw [getTsap_none]; exact and_comm, ?_⟩
  · unfold getTsap
    cases h : index t.gas a with
    | none =>
      have := index_none.1 h
      simp only [this, not_false_eq_true, and_true]
      by_cases he : a.fs = t.ind.fs
      · simp [Addr.eq, he]
      · simp [Addr.eq, he]
    | some i =>
      have : ¬ (a.fs ∉ t.gas.map Addr.fs) := by rw [← index_none, h]; simp
      simp only [this, and_false, iff_false]
      simp
  · intro hm
    unfold getTsap
    cases h : index t.gas a with
    | none => exact absurd hm (index_none.1 h)
    | some i => exact ⟨i, rfl⟩

example : exTable.getTsap ⟨9, 0x1004⟩ = some 0 := ((c13_tsap _ _).1).2 ⟨by decide, by decide⟩
example : exTable.getTsap ⟨9, 0x1005⟩ = none := ((c13_tsap _ _).2.1).2 ⟨by decide, by decide⟩
example : ∃ n, exTable.getTsap ⟨9, 0x0E89⟩ = some (n + 1) := (c13_tsap _ _).2.2 (by decide)

end Knx
