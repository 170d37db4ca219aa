import Verif.Lemmas.Dict
import Verif.Spec.GroupObjects

/-! # C14: the group object table behaves as a map -/

namespace Knx
open GroupObjectTable

theorem dictDel_keys {ν : Type} {d : List (Asap × ν)} (hd : (d.map fun p => p.1.value).Nodup) (k : Asap) :
    (dictDel Asap.eq d k).map (fun p => p.1.value) = (d.map fun p => p.1.value).filter (· ≠ k.value) := by
  induction d with
  | nil => rfl
  | cons p d ih =>
    obtain ⟨k', v⟩ := p
    simp only [List.map_cons, List.nodup_cons] at hd
    simp only [dictDel]
    by_cases h : k'.value = k.value
    · have hb : Asap.eq k' k = true := by simp [Asap.eq, h]
      rw [if_pos hb]
      simp only [List.map_cons, List.filter_cons, h, ne_eq, not_true_eq_false, decide_false, Bool.false_eq_true, if_false]
      symm
      rw [List.filter_eq_self]
      intro x hx
      have : x ≠ k.value := by
        rintro rfl
        exact hd.1 (h ▸ hx)
      simpa using this
    · have hb : ¬ Asap.eq k' k = true := by simp [Asap.eq, h]
      rw [if_neg hb]
      simp only [List.map_cons, List.filter_cons, h, ne_eq, not_false_eq_true, decide_true, if_true, ih hd.2]

theorem dictGet_dictDel {ν : Type} {d : List (Asap × ν)} (hd : (d.map fun p => p.1.value).Nodup) (k k' : Asap) :
    dictGet Asap.eq (dictDel Asap.eq d k) k' = if k.value = k'.value then none else dictGet Asap.eq d k' := by
  induction d with
  | nil => simp [dictDel, dictGet]
  | cons p d ih =>
    obtain ⟨k'', v⟩ := p
    simp only [List.map_cons, List.nodup_cons] at hd
    simp only [dictDel, dictGet]
    by_cases h : k''.value = k.value
    · have hb : Asap.eq k'' k = true := by simp [Asap.eq, h]
      rw [if_pos hb]
      by_cases h' : k.value = k'.value
      · rw [if_pos h', dictGet_eq_none asap_keyEq]
        intro p hp e
        apply hd.1
        rw [h, h', ← e]
        exact List.mem_map_of_mem (f := fun p : Asap × ν => p.1.value) hp
      · have hb' : ¬ Asap.eq k'' k' = true := by simp [Asap.eq, h, h']
        rw [if_neg h', if_neg hb']
    · have hb : ¬ Asap.eq k'' k = true := by simp [Asap.eq, h]
      rw [if_neg hb]
      simp only [dictGet, ih hd.2]
      by_cases h' : k.value = k'.value
      · have hb' : ¬ Asap.eq k'' k' = true := by simp [Asap.eq, ← h', h]
        simp [h', hb']
      · simp [h']

/-- C14: after any history, the datapoint type looked up for an ASAP is the one of the last `associate` with an equal
value that no `disassociate` followed (`KeyError` if there is none), every value is listed once, the listing is in
order of registration. -/
theorem c14_map (ops : List GroupObjectTable.Op) :
    let t := ops.foldl GroupObjectTable.after ([] : GroupObjectTable)
    (∀ asap : Asap, t.lookup asap =
      match Spec.typeOf asap.value ops.reverse with
      | some c => .ok c
      | none => .error .keyError) ∧
    t.map (fun p => p.1.value) = Spec.registered ops.reverse ∧
    (t.map fun p => p.1.value).Nodup := by
  have key : ∀ rev : List GroupObjectTable.Op,
      let t := rev.foldr (fun op t => GroupObjectTable.after t op) ([] : GroupObjectTable)
      (∀ asap : Asap, dictGet Asap.eq t asap = Spec.typeOf asap.value rev) ∧
      t.map (fun p => p.1.value) = Spec.registered rev ∧ (t.map fun p => p.1.value).Nodup := by
    intro rev
    induction rev with
    | nil => exact ⟨fun _ => rfl, rfl, List.nodup_nil⟩
    | cons op rev ih =>
      obtain ⟨h1, h2, h3⟩ := ih
      simp only [List.foldr_cons]
      generalize rev.foldr (fun op t => GroupObjectTable.after t op) ([] : GroupObjectTable) = t at h1 h2 h3
      cases op with
      | associate a c =>
        simp only [GroupObjectTable.after, GroupObjectTable.associate]
        refine ⟨fun asap => ?_, ?_, dictSet_nodup asap_keyEq h3 a c⟩
        · simp only [Spec.typeOf]
          by_cases h : a.value = asap.value
          · rw [if_pos h]
            exact dictGet_dictSet_same asap_keyEq t h c
          · rw [if_neg h, dictGet_dictSet_other asap_keyEq t h, h1]
        · have e : ∀ d : GroupObjectTable, (d.map fun p => p.1.value) = (d.map fun p => p.1).map Asap.value := by
            intro d; simp
          rw [e, dictSet_keys]
          simp only [Spec.registered]
          rw [← h2]
          by_cases hm : a.value ∈ t.map fun p => p.1.value
          · have : dictGet Asap.eq t a ≠ none := by
              rw [Ne, dictGet_eq_none asap_keyEq]
              intro hall
              obtain ⟨p, hp, hv⟩ := List.mem_map.1 hm
              exact hall p hp hv
            rw [if_pos hm, if_neg this, ← e]
          · have : dictGet Asap.eq t a = none := by
              rw [dictGet_eq_none asap_keyEq]
              intro p hp hv
              exact hm (List.mem_map.2 ⟨p, hp, hv⟩)
            rw [if_neg hm, if_pos this, List.map_append, ← e]
            rfl
      | disassociate a =>
        have hdel : GroupObjectTable.after t (.disassociate a) = dictDel Asap.eq t a := by
          simp only [GroupObjectTable.after, GroupObjectTable.disassociate]
          cases hg : dictGet Asap.eq t a with
          | some c => rfl
          | none =>
            simp only
            have : ∀ d : GroupObjectTable, dictGet Asap.eq d a = none → dictDel Asap.eq d a = d := by
              intro d
              induction d with
              | nil => intro _; rfl
              | cons p d ih =>
                intro hn
                simp only [dictGet] at hn
                simp only [dictDel]
                split_ifs at hn ⊢ with hb
                rw [ih hn]
            exact (this t hg).symm
        rw [hdel]
        refine ⟨fun asap => ?_, ?_, ?_⟩
        · rw [dictGet_dictDel h3, h1]
          simp only [Spec.typeOf]
        · rw [dictDel_keys h3, h2]
          simp only [Spec.registered]
        · rw [dictDel_keys h3]
          exact h3.filter _
  have := key ops.reverse
  rw [List.foldr_reverse] at this
  obtain ⟨h1, h2, h3⟩ := this
  refine ⟨fun asap => ?_, h2, h3⟩
  unfold GroupObjectTable.lookup
  rw [h1]
  cases Spec.typeOf asap.value ops.reverse <;> rfl

/-- C14: a `disassociate` raises `KeyError` exactly if the value is not registered, and then changes nothing. -/
theorem c14_disassociate (t : GroupObjectTable) (asap : Asap) :
    ((GroupObjectTable.disassociate asap t).1 = .ok () ↔ asap.value ∈ t.map fun p => p.1.value) ∧
    ((GroupObjectTable.disassociate asap t).1 ≠ .ok () → GroupObjectTable.disassociate asap t = (.error .keyError, t)) := by
  unfold GroupObjectTable.disassociate
  cases hg : dictGet Asap.eq t asap with
  | none =>
    rw [dictGet_eq_none asap_keyEq] at hg
    refine ⟨?_, fun _ => rfl⟩
    simp only [reduceCtorEq, false_iff]
    intro hm
    obtain ⟨p, hp, hv⟩ := List.mem_map.1 hm
    exact hg p hp hv
  | some c =>
    obtain ⟨k, hk, hv⟩ := dictGet_mem asap_keyEq hg
    refine ⟨?_, fun h => absurd rfl h⟩
    simp only [true_iff]
    exact List.mem_map.2 ⟨_, hk, hv⟩

/-- A history with re-association, disassociation and a second name for an ASAP value. -/
def exGot : List GroupObjectTable.Op :=
  [.associate ⟨2, none⟩ .switch, .associate ⟨1, none⟩ .brightness, .associate ⟨2, some "hall"⟩ .float16,
   .disassociate ⟨1, some "x"⟩, .associate ⟨5, none⟩ .alarm, .associate ⟨1, none⟩ .upDown]

example :
    let t := exGot.foldl GroupObjectTable.after ([] : GroupObjectTable)
    t.lookup ⟨2, none⟩ = .ok .float16 ∧ t.lookup ⟨3, none⟩ = .error .keyError ∧
      t.map (fun p => p.1.value) = [2, 5, 1] :=
  ⟨(c14_map exGot).1 ⟨2, none⟩, (c14_map exGot).1 ⟨3, none⟩, (c14_map exGot).2.1.trans (by decide)⟩

end Knx
