import Verif.Model.Rename
import Verif.Props.TableMachine

/-! # C88: changing a stored address object -/

namespace Knx

namespace Spec

/-- The addresses `u` and `v` exchanged. -/
def swapped (u v x : BitVec 16) : BitVec 16 := if x = u then v else if x = v then u else x

/-- The object is in one of the tables. -/
def Stored (t : AssocTable) (a : Addr) : Prop := a = t.at_.ind ∨ a ∈ t.at_.gas ∨ ∃ p ∈ t.asapAddrs, a ∈ p.2

/-- The value `u` is stored as the object `o` and nothing else, the value `v` not at all. -/
def OneObject (t : AssocTable) (o : Nat) (u v : BitVec 16) : Prop :=
  ∀ a, Stored t a → (a.fs = u ↔ a.oid = o) ∧ a.fs ≠ v

end Spec

open AssocTable AddressTable Spec

theorem swapped_inj {u v x y : BitVec 16} (h : swapped u v x = swapped u v y) : x = y := by
  unfold swapped at h
  split_ifs at h <;> simp_all

theorem rename_fs {t : AssocTable} {o : Nat} {u v : BitVec 16} (h : OneObject t o u v) {a : Addr} (ha : Stored t a) :
    (a.rename o v).fs = swapped u v a.fs := by
  obtain ⟨h1, h2⟩ := h a ha
  unfold Addr.rename swapped
  by_cases ho : a.oid = o
  · rw [if_pos ho, if_pos (h1.2 ho)]
  · rw [if_neg ho, if_neg fun hc => ho (h1.1 hc), if_neg h2]

theorem index_rename {f : Addr → Addr} {u v : BitVec 16} (l : List Addr) (hl : ∀ x ∈ l, (f x).fs = swapped u v x.fs)
    {a b : Addr} (hb : b.fs = swapped u v a.fs) : index (l.map f) b = index l a := by
  induction l with
  | nil => rfl
  | cons x l ih =>
    simp only [List.map_cons, index]
    have hx := hl x (by simp)
    have : (f x).eq b = x.eq a := by
      rw [Bool.eq_iff_iff, AddressTable.eq_iff, AddressTable.eq_iff, hx, hb]
      exact ⟨swapped_inj, fun e => by rw [e]⟩
    rw [this, ih fun y hy => hl y (by simp [hy])]

theorem getTsap_rename {t : AssocTable} {o : Nat} {u v : BitVec 16} (h : OneObject t o u v) {a b : Addr}
    (hb : b.fs = swapped u v a.fs) : (t.rename o v).at_.getTsap b = t.at_.getTsap a := by
  unfold AddressTable.getTsap AssocTable.rename
  simp only
  rw [index_rename t.at_.gas (fun x hx => rename_fs h (Or.inr (Or.inl hx))) hb]
  have : b.eq (t.at_.ind.rename o v) = a.eq t.at_.ind := by
    rw [Bool.eq_iff_iff, AddressTable.eq_iff, AddressTable.eq_iff, hb, rename_fs h (Or.inl rfl)]
    exact ⟨swapped_inj, fun e => by rw [e]⟩
  rw [this]

theorem dictGet_rename (d : List (Asap × List Addr)) (f : Addr → Addr) (asap : Asap) :
    dictGet Asap.eq (d.map fun p => (p.1, p.2.map f)) asap = (dictGet Asap.eq d asap).map (·.map f) := by
  induction d with
  | nil => rfl
  | cons p d ih =>
    obtain ⟨k, l⟩ := p
    simp only [List.map_cons, dictGet]
    split_ifs
    · rfl
    · exact ih

theorem dictGet_entry {d : List (Asap × List Addr)} {asap : Asap} {l : List Addr}
    (h : dictGet Asap.eq d asap = some l) : ∃ p ∈ d, p.2 = l := by
  induction d with
  | nil => simp [dictGet] at h
  | cons p d ih =>
    obtain ⟨k, m⟩ := p
    simp only [dictGet] at h
    split_ifs at h
    · exact ⟨_, List.mem_cons_self, by simpa using h⟩
    · obtain ⟨q, h1, h2⟩ := ih h
      exact ⟨q, List.mem_cons_of_mem _ h1, h2⟩

/-- C88, if the address is stored as one object only and the new value not at all: all lookups are those of before with
the two values exchanged, so that the ASAPs of the old address are now those of the new one, nobody's telegrams go
anywhere else, and no other address is concerned. The index stays up to date if it was. -/
theorem c88_partial (t : AssocTable) (o : Nat) (u v : BitVec 16) (h : OneObject t o u v) :
    (∀ a b : Addr, b.fs = swapped u v a.fs →
      (t.rename o v).getTsap b = t.getTsap a ∧
        (t.rename o v).getAsapsFromAddress b = t.getAsapsFromAddress a) ∧
      (∀ asap, (t.rename o v).sendAddresses asap = (t.sendAddresses asap).map (·.map (swapped u v))) ∧
      (t.rebuild = t → (t.rename o v).rebuild = t.rename o v) := by
  refine ⟨fun a b hb => ⟨getTsap_rename h hb, ?_⟩, fun asap => ?_, fun hb => ?_⟩
  · unfold AssocTable.getAsapsFromAddress
    rw [getTsap_rename h hb]
    rfl
  · have hg : dictGet Asap.eq (t.rename o v).asapAddrs asap = (dictGet Asap.eq t.asapAddrs asap).map (·.map (Addr.rename o v)) :=
      dictGet_rename _ _ _
    cases hd : dictGet Asap.eq t.asapAddrs asap with
    | none =>
      rw [hd] at hg
      rw [send_unknown hd, send_unknown hg]
      rfl
    | some l =>
      rw [hd] at hg
      obtain ⟨p, hp, rfl⟩ := dictGet_entry hd
      have hst : ∀ a ∈ p.2, Stored t a := fun a ha => Or.inr (Or.inr ⟨p, hp, ha⟩)
      have hts : ∀ a ∈ p.2, (t.rename o v).at_.getTsap (a.rename o v) = t.at_.getTsap a := fun a ha =>
        getTsap_rename h (rename_fs h (hst a ha))
      by_cases hc : ∃ a ∈ p.2, t.at_.getTsap a = none
      · obtain ⟨a, ha, hn⟩ := hc
        have e1 : t.sendAddresses asap = .error .typeError := by
          unfold sendAddresses getTsaps
          rw [hd]
          simp only
          rw [getAddresses_unresolved ⟨a, ha, hn⟩]
        have e2 : (t.rename o v).sendAddresses asap = .error .typeError := by
          unfold sendAddresses getTsaps
          rw [hg]
          simp only [Option.map_some]
          rw [getAddresses_unresolved ⟨a.rename o v, List.mem_map_of_mem ha, (hts a ha).trans hn⟩]
        rw [e1, e2]
        rfl
      · rw [send_resolved hd fun y hy hn => hc ⟨y, hy, hn⟩]
        rw [send_resolved hg fun y hy hn => by
          obtain ⟨a, ha, rfl⟩ := List.mem_map.1 hy
          exact hc ⟨a, ha, (hts a ha).symm.trans hn⟩]
        simp only [Except.map, List.map_map]
        congr 1
        apply List.map_congr_left
        intro a ha
        exact rename_fs h (hst a ha)
  · have hpairs : pairs (t.rename o v).at_ (t.rename o v).asapAddrs = pairs t.at_ t.asapAddrs := by
      unfold pairs
      simp only [AssocTable.rename, List.flatMap_map]
      apply List.flatMap_congr
      intro p hp
      rw [List.map_map]
      apply List.map_congr_left
      intro a ha
      simp only [Function.comp]
      congr 1
      exact getTsap_rename h (rename_fs h (Or.inr (Or.inr ⟨p, hp, ha⟩)))
    have e : (t.rename o v).rebuild.tsapAsaps = (t.rename o v).tsapAsaps := by
      rw [rebuild_pairs, hpairs, ← rebuild_pairs, hb]
      rfl
    have : (t.rename o v).rebuild = { t.rename o v with tsapAsaps := (t.rename o v).rebuild.tsapAsaps } := rfl
    rw [this, e]

/-- C88, afterwards: calls of `associate` and `disassociate` that succeed start from the associations with the new value,
and each known address is listed for the ASAPs associated with it, although the addresses were not sorted in between. -/
theorem c88_calls_partial (t : AssocTable) (o : Nat) (u v : BitVec 16) (h : OneObject t o u v) (hb : t.rebuild = t)
    (ops : List AssocTable.Op) (hops : ∀ op ∈ ops, op.Proper (t.rename o v).at_.ind) (hok : AllOk (t.rename o v) ops)
    (a : Addr) (ha : ((t.rename o v).afterAll ops).at_.getTsap a ≠ none) :
    ((t.rename o v).afterAll ops).Routes a
      (routed (follow (t.absDict.map fun p => (p.1, p.2.map (swapped u v))) ops) a.fs) := by
  have hd : (t.rename o v).absDict = t.absDict.map fun p => (p.1, p.2.map (swapped u v)) := by
    unfold absDict AssocTable.rename
    simp only [List.map_map]
    apply List.map_congr_left
    intro p hp
    simp only [Function.comp, List.map_map]
    congr 1
    apply List.map_congr_left
    intro a ha
    exact rename_fs h (Or.inr (Or.inr ⟨p, hp, ha⟩))
  obtain ⟨h1, h2, -⟩ := history_ok ((c88_partial t o u v h).2.2 hb) hops hok
  rw [← hd, ← h1]
  apply routes_of_objs
  have := route_rebuilt ha
  rw [h2] at this
  exact this

/-- C88 is false of every address that an ASAP has as another object than the address table: after the object in the
address table was changed, telegrams to the new address are for that ASAP, but it cannot send any more (`TypeError`). -/
theorem c88_refuted (t : AssocTable) (o : Nat) (u v : BitVec 16) (huv : u ≠ v)
    (hgas : ∀ a ∈ t.at_.gas, (a.fs = u ↔ a.oid = o) ∧ a.fs ≠ v) (hu : u ∈ t.at_.gas.map Addr.fs)
    (hind : t.at_.ind.fs ≠ u) (asap : Asap) (l : List Addr) (hl : dictGet Asap.eq t.asapAddrs asap = some l) (b : Addr)
    (hb : b ∈ l) (hbu : b.fs = u) (hbo : b.oid ≠ o) (hbuilt : t.rebuild = t) :
    (∃ r, (t.rename o v).getAsapsFromAddress ⟨0, v⟩ = .ok r ∧ asap.value ∈ r.map Asap.value) ∧
      (t.rename o v).sendAddresses asap = .error .typeError := by
  have hfs : ∀ x ∈ t.at_.gas, (x.rename o v).fs = swapped u v x.fs := by
    intro a ha
    obtain ⟨h1, h2⟩ := hgas a ha
    unfold Addr.rename swapped
    by_cases ho : a.oid = o
    · rw [if_pos ho, if_pos (h1.2 ho)]
    · rw [if_neg ho, if_neg fun hc => ho (h1.1 hc), if_neg h2]
  have hidx := index_rename t.at_.gas (f := Addr.rename o v) hfs (a := b) (b := ⟨0, v⟩) (by simp [swapped, hbu])
  have hnone : index (t.at_.gas.map (Addr.rename o v)) b = none := by
    rw [index_rename t.at_.gas hfs (a := ⟨0, v⟩) (b := b) (by
      simp only [swapped, if_neg (Ne.symm huv), if_true, hbu])]
    rw [index_none]
    intro hc
    obtain ⟨x, hx, hxv⟩ := List.mem_map.1 hc
    exact (hgas x hx).2 hxv
  have hsome : index t.at_.gas b ≠ none := by
    rw [Ne, index_none, hbu]
    exact not_not.2 hu
  constructor
  · have hts : (t.rename o v).at_.getTsap ⟨0, v⟩ = t.at_.getTsap b := by
      unfold AddressTable.getTsap AssocTable.rename
      simp only [hidx]
      cases hi : index t.at_.gas b with
      | none => exact absurd hi hsome
      | some i => rfl
    have hk : t.at_.getTsap b ≠ none := by
      unfold AddressTable.getTsap
      cases hi : index t.at_.gas b with
      | none => exact absurd hi hsome
      | some i => simp
    have hr := route_rebuilt hk
    rw [hbuilt] at hr
    have hro := routes_of_objs hr
    have hm : asap.value ∈ routed t.absDict b.fs := by
      obtain ⟨w, m, hwm⟩ : ∃ p ∈ t.absDict, p.1 = asap.value ∧ b.fs ∈ p.2 := by
        obtain ⟨k, hk1, hk2⟩ := dictGet_mem asap_keyEq hl
        refine ⟨(k.value, l.map Addr.fs), ?_, ?_, List.mem_map_of_mem hb⟩
        · unfold absDict
          exact List.mem_map.2 ⟨(k, l), hk1, rfl⟩
        · exact hk2
      unfold routed
      rw [List.mem_flatMap]
      refine ⟨w, m, List.mem_replicate.2 ⟨fun h0 => (List.count_eq_zero.1 h0) hwm.2, hwm.1.symm⟩⟩
    unfold AssocTable.Routes at hro
    rw [if_neg (List.ne_nil_of_mem hm)] at hro
    obtain ⟨r, h1, h2⟩ := hro
    refine ⟨r, ?_, by rw [h2]; exact hm⟩
    unfold AssocTable.getAsapsFromAddress at h1 ⊢
    rw [hts]
    exact h1
  · have hg : dictGet Asap.eq (t.rename o v).asapAddrs asap = some (l.map (Addr.rename o v)) := by
      have := dictGet_rename t.asapAddrs (Addr.rename o v) asap
      rw [hl] at this
      exact this
    have hbn : (t.rename o v).at_.getTsap (b.rename o v) = none := by
      have e : b.rename o v = b := by
        unfold Addr.rename
        rw [if_neg hbo]
      rw [e]
      unfold AddressTable.getTsap AssocTable.rename
      simp only [hnone]
      rw [if_neg]
      intro hc
      rw [AddressTable.eq_iff, hbu] at hc
      unfold Addr.rename at hc
      split_ifs at hc
      · exact huv hc
      · exact hind hc.symm
    unfold sendAddresses getTsaps
    rw [hg]
    simp only
    rw [getAddresses_unresolved ⟨b.rename o v, List.mem_map_of_mem hb, hbn⟩]

/-! ## Examples -/

/-- Two ASAPs with one address object each. -/
def exRename : AssocTable where
  at_ := ⟨9, ⟨0, 0x1004⟩, [⟨1, 0x0010⟩, ⟨2, 0x0020⟩]⟩
  asapAddrs := [(⟨0, none⟩, [⟨0, 0x1004⟩]), (⟨1, none⟩, [⟨1, 0x0010⟩]), (⟨2, none⟩, [⟨2, 0x0020⟩])]
  tsapAsaps := [(some 0, [⟨0, none⟩]), (some 1, [⟨1, none⟩]), (some 2, [⟨2, none⟩])]

theorem exRename_one : OneObject exRename 1 0x0010 0x0777 := by
  rintro a (h | h | ⟨p, hp, ha⟩)
  · subst h
    decide
  · simp only [exRename, List.mem_cons, List.not_mem_nil, or_false] at h
    rcases h with rfl | rfl <;> decide
  · simp only [exRename, List.mem_cons, List.not_mem_nil, or_false] at hp
    rcases hp with rfl | rfl | rfl <;> simp only [List.mem_cons, List.not_mem_nil, or_false] at ha <;> subst ha <;> decide

/-- The object with 0x0010 becomes 0x0777, behind 0x0020: ASAP 1 sends to 0x0777. -/
example : (exRename.rename 1 0x0777).sendAddresses ⟨1, none⟩ = .ok [0x0777] := by
  rw [(c88_partial exRename 1 0x0010 0x0777 exRename_one).2.1]
  decide +kernel

example : ((exRename.rename 1 0x0777).afterAll [.associate ⟨3, none⟩ [⟨3, 0x0030⟩]]).Routes ⟨5, 0x0777⟩ [1] := by
  have := c88_calls_partial exRename 1 0x0010 0x0777 exRename_one (by decide +kernel)
    [.associate ⟨3, none⟩ [⟨3, 0x0030⟩]] (by decide +kernel) (by decide +kernel) ⟨5, 0x0777⟩ (by decide +kernel)
  have e : routed (follow (exRename.absDict.map fun p => (p.1, p.2.map (swapped 0x0010 0x0777)))
      [.associate ⟨3, none⟩ [⟨3, 0x0030⟩]]) 0x0777 = [1] := by decide +kernel
  rw [e] at this
  exact this

/-- ASAP 2 has 0x0010 as an object of its own. -/
def exRenameTwo : AssocTable where
  at_ := ⟨9, ⟨0, 0x1004⟩, [⟨1, 0x0010⟩]⟩
  asapAddrs := [(⟨1, none⟩, [⟨1, 0x0010⟩]), (⟨2, none⟩, [⟨2, 0x0010⟩])]
  tsapAsaps := [(some 1, [⟨1, none⟩, ⟨2, none⟩])]

example : (exRenameTwo.rename 1 0x0777).sendAddresses ⟨2, none⟩ = .error .typeError :=
  (c88_refuted exRenameTwo 1 0x0010 0x0777 (by decide) (by decide) (by decide) (by decide) ⟨2, none⟩ [⟨2, 0x0010⟩]
    (by decide) ⟨2, 0x0010⟩ (by decide) (by decide) (by decide) (by decide +kernel)).2

end Knx
