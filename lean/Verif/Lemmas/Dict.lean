import Verif.Model.State

/-! # Laws of insertion-ordered dictionaries -/

namespace Knx

/-- The key comparison is equality of a key value. -/
def KeyEq {κ γ : Type} (eq : κ → κ → Bool) (f : κ → γ) : Prop := ∀ a b, eq a b = true ↔ f a = f b

theorem asap_keyEq : KeyEq Asap.eq Asap.value := by
  intro a b
  simp [Asap.eq]

theorem beq_keyEq {κ : Type} [BEq κ] [LawfulBEq κ] : KeyEq (fun a b : κ => a == b) id := by
  intro a b
  simp

section
variable {κ γ ν : Type} {eq : κ → κ → Bool} {f : κ → γ}

theorem dictGet_eq_none (h : KeyEq eq f) (d : List (κ × ν)) (k : κ) :
    dictGet eq d k = none ↔ ∀ p ∈ d, f p.1 ≠ f k := by
  induction d with
  | nil => simp [dictGet]
  | cons p d ih =>
    obtain ⟨k', v⟩ := p
    simp only [dictGet]
    by_cases hk : eq k' k = true
    · simp [hk, (h k' k).1 hk]
    · have : f k' ≠ f k := fun e => hk ((h k' k).2 e)
      simp [hk, ih, this]

theorem dictGet_mem (h : KeyEq eq f) {d : List (κ × ν)} {k : κ} {v : ν} (hv : dictGet eq d k = some v) :
    ∃ k', (k', v) ∈ d ∧ f k' = f k := by
  induction d with
  | nil => simp [dictGet] at hv
  | cons p d ih =>
    obtain ⟨k', v'⟩ := p
    simp only [dictGet] at hv
    by_cases hk : eq k' k = true
    · rw [if_pos hk] at hv
      simp only [Option.some.injEq] at hv
      subst hv
      exact ⟨k', List.mem_cons_self, (h k' k).1 hk⟩
    · rw [if_neg hk] at hv
      obtain ⟨k'', hm, he⟩ := ih hv
      exact ⟨k'', List.mem_cons_of_mem _ hm, he⟩

theorem dictGet_congr (h : KeyEq eq f) (d : List (κ × ν)) {k k' : κ} (hk : f k = f k') :
    dictGet eq d k = dictGet eq d k' := by
  induction d with
  | nil => rfl
  | cons p d ih =>
    obtain ⟨k'', v⟩ := p
    simp only [dictGet]
    have : eq k'' k = eq k'' k' := by
      rw [Bool.eq_iff_iff, h, h, hk]
    rw [this, ih]

theorem dictGet_of_mem (h : KeyEq eq f) {d : List (κ × ν)} (hd : (d.map fun p => f p.1).Nodup) {k : κ} {v : ν}
    (hm : (k, v) ∈ d) : dictGet eq d k = some v := by
  induction d with
  | nil => simp at hm
  | cons p d ih =>
    obtain ⟨k', v'⟩ := p
    simp only [List.map_cons, List.nodup_cons] at hd
    simp only [dictGet]
    rcases List.mem_cons.1 hm with he | hm'
    · simp only [Prod.mk.injEq] at he
      obtain ⟨rfl, rfl⟩ := he
      rw [if_pos ((h _ _).2 rfl)]
    · have hne : f k' ≠ f k := by
        intro e
        apply hd.1
        rw [e]
        exact List.mem_map_of_mem (f := fun p : κ × ν => f p.1) hm'
      rw [if_neg (fun e => hne ((h _ _).1 e)), ih hd.2 hm']

theorem dictGet_dictSet_same (h : KeyEq eq f) (d : List (κ × ν)) {k k' : κ} (hk : f k = f k') (v : ν) :
    dictGet eq (dictSet eq d k v) k' = some v := by
  induction d with
  | nil => simp [dictSet, dictGet, (h k k').2 hk]
  | cons p d ih =>
    obtain ⟨k'', v''⟩ := p
    simp only [dictSet]
    by_cases he : eq k'' k = true
    · have : eq k'' k' = true := (h _ _).2 (((h _ _).1 he).trans hk)
      simp [he, dictGet, this]
    · have : ¬ eq k'' k' = true := fun e => he ((h _ _).2 (((h _ _).1 e).trans hk.symm))
      simp only [he, Bool.false_eq_true, if_false, dictGet, this, ih]

theorem dictGet_dictSet_other (h : KeyEq eq f) (d : List (κ × ν)) {k k' : κ} (hk : f k ≠ f k') (v : ν) :
    dictGet eq (dictSet eq d k v) k' = dictGet eq d k' := by
  induction d with
  | nil =>
    have : ¬ eq k k' = true := fun e => hk ((h _ _).1 e)
    simp [dictSet, dictGet, this]
  | cons p d ih =>
    obtain ⟨k'', v''⟩ := p
    simp only [dictSet]
    by_cases he : eq k'' k = true
    · have : ¬ eq k'' k' = true := fun e => hk (((h _ _).1 he).symm.trans ((h _ _).1 e))
      simp [he, dictGet, this]
    · simp only [he, Bool.false_eq_true, if_false, dictGet, ih]

theorem dictSet_keys (d : List (κ × ν)) (k : κ) (v : ν) :
    (dictSet eq d k v).map (fun p => p.1) =
      if dictGet eq d k = none then d.map (fun p => p.1) ++ [k] else d.map (fun p => p.1) := by
  induction d with
  | nil => simp [dictSet, dictGet]
  | cons p d ih =>
    obtain ⟨k'', v''⟩ := p
    simp only [dictSet, dictGet]
    by_cases he : eq k'' k = true
    · simp [he]
    · simp only [he, Bool.false_eq_true, if_false, List.map_cons, ih]
      split_ifs <;> simp

theorem dictSet_nodup (h : KeyEq eq f) {d : List (κ × ν)} (hd : (d.map fun p => f p.1).Nodup) (k : κ) (v : ν) :
    ((dictSet eq d k v).map fun p => f p.1).Nodup := by
  have e : ∀ d : List (κ × ν), (d.map fun p => f p.1) = (d.map fun p => p.1).map f := by intro d; simp
  rw [e] at hd ⊢
  rw [dictSet_keys]
  split_ifs with hn
  · rw [List.map_append, List.nodup_append]
    refine ⟨hd, by simp, ?_⟩
    intro a ha b hb
    simp only [List.map_cons, List.map_nil, List.mem_singleton] at hb
    subst hb
    simp only [List.map_map, List.mem_map] at ha
    obtain ⟨p, hp, rfl⟩ := ha
    exact (dictGet_eq_none h d k).1 hn p hp
  · exact hd

end
end Knx
