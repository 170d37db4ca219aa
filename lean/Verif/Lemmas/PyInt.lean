import Verif.Lemmas.Text
import Verif.Model.PyInt
import Verif.Spec.Number
import Mathlib.Data.List.TakeWhile

/-! # What `int` does with text -/

namespace Knx

open Spec

theorem decVal_spec (c : Char) : decVal c = decimalOf c := by
  have key : ∀ v, decVal c = some v ↔ decimalOf c = some v := by
    intro v
    have hd : decVal c = some v ↔ PyDigit c v ∧ v < 10 := by
      unfold decVal
      rw [← intVal_some_iff]
      cases h : intVal c with
      | none => simp
      | some w =>
        simp only [Option.some.injEq]
        split_ifs with hw
        · simp only [Option.some.injEq]
          constructor
          · rintro rfl; exact ⟨rfl, hw⟩
          · exact fun h => h.1
        · constructor
          · intro h; cases h
          · rintro ⟨rfl, h⟩; exact absurd h hw
    have hs : decimalOf c = some v ↔ v < 10 ∧ ∃ z ∈ 0x30 :: digitZeros, c.toNat = z + v := by
      have hu : ∀ z z', z ∈ 0x30 :: digitZeros → z' ∈ 0x30 :: digitZeros → (z ≤ c.toNat ∧ c.toNat < z + 10) →
          (z' ≤ c.toNat ∧ c.toNat < z' + 10) → z = z' := by
        have hlow : ∀ z ∈ digitZeros, 0x660 ≤ z := by decide +kernel
        intro z z' hz hz' h h'
        rcases List.mem_cons.1 hz with e | e <;> rcases List.mem_cons.1 hz' with e' | e'
        · rw [e, e']
        · have := hlow _ e'
          omega
        · have := hlow _ e
          omega
        · exact zero_unique e e' h h'
      unfold decimalOf
      constructor
      · intro h
        obtain ⟨z, hz, hv⟩ := Option.map_eq_some_iff.1 h
        have hp := List.find?_some hz
        simp only [decide_eq_true_eq] at hp
        exact ⟨by omega, z, List.mem_of_find?_eq_some hz, by omega⟩
      · rintro ⟨hv, z, hz, hc⟩
        cases hf : (0x30 :: digitZeros).find? fun z => decide (z ≤ c.toNat ∧ c.toNat < z + 10) with
        | none =>
          have := List.find?_eq_none.1 hf z hz
          simp only [decide_eq_true_eq] at this
          omega
        | some z' =>
          have hp := List.find?_some hf
          simp only [decide_eq_true_eq] at hp
          have := hu z z' hz (List.mem_of_find?_eq_some hf) (by omega) hp
          simp only [Option.map_some, Option.some.injEq]
          omega
    rw [hd, hs]
    constructor
    · rintro ⟨h | ⟨h, z, hz, hc⟩, hv⟩
      · refine ⟨hv, 0x30, by simp, ?_⟩
        have hx := h
        unfold HexDigit hexTable at hx
        simp only [List.mem_cons, Prod.mk.injEq, List.not_mem_nil, or_false] at hx
        rcases hx with h|h|h|h|h|h|h|h|h|h|h|h|h|h|h|h|h|h|h|h|h|h <;> obtain ⟨rfl, rfl⟩ := h <;> first | decide | omega
      · exact ⟨hv, z, by simp [hz], hc⟩
    · rintro ⟨hv, z, hz, hc⟩
      refine ⟨?_, hv⟩
      rcases List.mem_cons.1 hz with rfl | hz
      · left
        have : c = Char.ofNat c.toNat := (Char.ofNat_toNat c).symm
        rw [this, hc]
        interval_cases v <;> decide
      · exact .inr ⟨hv, z, hz, hc⟩
  cases h : decimalOf c with
  | some v => exact (key v).2 h
  | none =>
    cases h' : decVal c with
    | none => rfl
    | some v => rw [(key v).1 h'] at h; cases h

theorem underscore_decimal : decVal '_' = none := by decide +kernel

/-- Spaces and signs are no digits. -/
theorem space_decimal {c : Char} (h : isPySpace c = true ∨ c = '+' ∨ c = '-') : decVal c = none ∧ c ≠ '_' := by
  rcases h with h | rfl | rfl
  · constructor
    · have hn : ∀ z ∈ 0x30 :: digitZeros, ∀ v < 10, spaceCode (z + v) = false := by decide +kernel
      rw [decVal_spec]
      unfold decimalOf
      rw [Option.map_eq_none_iff, List.find?_eq_none]
      intro z hz hp
      simp only [decide_eq_true_eq] at hp
      have := hn z hz (c.toNat - z) (by omega)
      rw [Nat.add_sub_cancel' hp.1] at this
      unfold isPySpace at h
      rw [this] at h
      cases h
    · rintro rfl
      revert h
      decide
  · decide +kernel
  · decide +kernel

theorem numberDigits_iff (b : Bool) (s : List Char) (ds : List Nat) :
    numberDigits b s = some ds ↔ (b = false → s ≠ [] ∧ s.head? ≠ some '_') ∧ (∀ c ∈ s, c = '_' ∨ (decimalOf c).isSome) ∧
      s.getLast? ≠ some '_' ∧ (s.IsChain fun a b => a ≠ '_' ∨ b ≠ '_') ∧ ds = s.filterMap decimalOf := by
  induction s generalizing b ds with
  | nil =>
    cases b
    · simp [numberDigits]
    · simp only [numberDigits, if_true, Option.some.injEq, List.filterMap_nil]
      constructor
      · rintro rfl
        simp
      · exact fun h => h.2.2.2.2.symm
  | cons c s ih =>
    unfold numberDigits
    by_cases hc : c = '_'
    · subst hc
      have hd : decimalOf '_' = none := by rw [← decVal_spec]; exact underscore_decimal
      rw [if_pos rfl]
      cases b with
      | false => simp
      | true =>
        rw [if_pos rfl, ih]
        rw [List.isChain_cons, List.filterMap_cons_none hd]
        simp only [forall_const, List.mem_cons, forall_eq_or_imp, true_or, true_and, reduceCtorEq, false_implies, ne_eq,
          not_true_eq_false, false_or]
        constructor
        · rintro ⟨⟨h1, h2⟩, h3, h4, h5, h6⟩
          refine ⟨h3, ?_, ⟨?_, h5⟩, h6⟩
          · rw [List.getLast?_cons, List.getLast?_eq_some_getLast h1] at *
            simpa using h4
          · intro y hy e
            exact h2 (e ▸ hy)
        · rintro ⟨h3, h4, ⟨h2, h5⟩, h6⟩
          have h1 : s ≠ [] := by rintro rfl; simp at h4
          refine ⟨⟨h1, fun h => h2 '_' h rfl⟩, h3, ?_, h5, h6⟩
          rw [List.getLast?_cons, List.getLast?_eq_some_getLast h1] at *
          simpa using h4
    · rw [if_neg hc, decVal_spec]
      cases hv : decimalOf c with
      | none => simp [hc, hv]
      | some v =>
        simp only
        have key : (match numberDigits true s with | none => none | some vs => some (v :: vs)) = some ds ↔
            ∃ vs, numberDigits true s = some vs ∧ ds = v :: vs := by
          cases numberDigits true s <;> simp [eq_comm]
        refine key.trans ?_
        simp only [ih]
        rw [List.isChain_cons, List.filterMap_cons_some hv]
        have hlast : (c :: s).getLast? ≠ some '_' ↔ s.getLast? ≠ some '_' := by
          cases s with
          | nil => simp [hc]
          | cons x s => rw [List.getLast?_cons_cons]
        rw [hlast]
        simp only [reduceCtorEq, false_implies, true_and, ne_eq, not_false_eq_true, List.head?_cons,
          Option.some.injEq, hc, implies_true, List.mem_cons, forall_eq_or_imp, hv, Option.isSome_some, false_or, true_or]
        constructor
        · rintro ⟨vs, ⟨h1, h2, h3, rfl⟩, rfl⟩
          exact ⟨h1, h2, h3, rfl⟩
        · rintro ⟨h1, h2, h3, rfl⟩
          exact ⟨_, ⟨h1, h2, h3, rfl⟩, rfl⟩

theorem numberDigits_grouped (s : List Char) : numberDigits false s = if Grouped s then some (s.filterMap decimalOf) else none := by
  split_ifs with h
  · exact (numberDigits_iff _ _ _).2 ⟨fun _ => ⟨h.1, h.2.2.1⟩, h.2.1, h.2.2.2.1, h.2.2.2.2, rfl⟩
  · cases hn : numberDigits false s with
    | none => rfl
    | some ds =>
      obtain ⟨h1, h2, h3, h4, -⟩ := (numberDigits_iff _ _ _).1 hn
      exact absurd ⟨(h1 rfl).1, h2, (h1 rfl).2, h3, h4⟩ h

theorem repeated_succ (n : Nat) (s : List Char) : repeated (n + 1) s = s ++ repeated n s := by
  simp [repeated, List.replicate_succ]

theorem repeated_head (n : Nat) (s : List Char) (hs : s ≠ []) : (repeated (n + 1) s).head? = s.head? := by
  rw [repeated_succ, List.head?_append_of_ne_nil _ hs]

theorem grouped_repeated (n : Nat) (s : List Char) : Grouped (repeated (n + 1) s) ↔ Grouped s := by
  by_cases hs : s = []
  · subst hs
    have : repeated (n + 1) ([] : List Char) = [] := by simp [repeated]
    rw [this]
  induction n with
  | zero => rw [repeated_succ]; simp [repeated]
  | succ n ih =>
    have hne : repeated (n + 1) s ≠ [] := by rw [repeated_succ]; simp [hs]
    rw [repeated_succ]
    unfold Grouped at ih ⊢
    rw [List.isChain_append, List.head?_append_of_ne_nil _ hs, List.getLast?_append_of_ne_nil _ hne]
    constructor
    · rintro ⟨-, h2, h3, h4, h5, h6, h7⟩
      exact ih.1 ⟨hne, fun c hc => h2 c (by simp [hc]), by rw [repeated_head n s hs]; exact h3, h4, h6⟩
    · intro h
      obtain ⟨-, h2, h3, h4, h5⟩ := ih.2 h
      obtain ⟨-, g2, g3, g4, g5⟩ := h
      refine ⟨by simp [hs], fun c hc => ?_, g3, h4, g5, h5, fun x hx y hy => .inl ?_⟩
      · rcases List.mem_append.1 hc with hc | hc
        exacts [g2 c hc, h2 c hc]
      · rintro rfl
        exact g4 hx

theorem middle_mem {α : Type} {d c : α} {X Y P B Q : List α} (h : X ++ c :: Y = P ++ B ++ Q) (hx : d ∈ X) (hy : d ∈ Y)
    (hp : d ∉ P) (hq : d ∉ Q) : c ∈ B := by
  rw [List.append_assoc] at h
  rcases List.append_eq_append_iff.1 h with ⟨as, rfl, h2⟩ | ⟨bs, rfl, h2⟩
  · exact absurd (List.mem_append_left _ hx) hp
  · rcases List.append_eq_append_iff.1 h2 with ⟨as, h3, h4⟩ | ⟨as, h3, h4⟩
    · refine absurd ?_ hq
      rw [h4]
      simp [hy]
    · cases as with
      | nil =>
        refine absurd ?_ hq
        rw [List.nil_append] at h4
        rw [← h4]
        simp [hy]
      | cons x as =>
        rw [List.cons_append, List.cons.injEq] at h4
        rw [h3, h4.1]
        simp

theorem strip_split (s : List Char) : ∃ P Q, s = P ++ ((s.dropWhile isPySpace).reverse.dropWhile isPySpace).reverse ++ Q ∧
    (∀ c ∈ P, isPySpace c = true) ∧ ∀ c ∈ Q, isPySpace c = true := by
  refine ⟨s.takeWhile isPySpace, ((s.dropWhile isPySpace).reverse.takeWhile isPySpace).reverse, ?_, ?_, ?_⟩
  · rw [List.append_assoc, ← List.reverse_append, List.takeWhile_append_dropWhile, List.reverse_reverse,
      List.takeWhile_append_dropWhile]
  · intro c hc
    exact List.mem_takeWhile_imp hc
  · intro c hc
    exact List.mem_takeWhile_imp (List.mem_reverse.1 hc)

/-- `int` of a text without spaces and signs. -/
theorem pyInt_plain {s : List Char} (h : ∀ c ∈ s, c = '_' ∨ (decimalOf c).isSome) :
    pyInt s = match numberDigits false s with
      | none => .error .valueError
      | some ds => if 4300 < ds.length then .error .valueError else .ok ((ds.foldl (fun n d => 10 * n + d) 0 : Nat) : Int) := by
  have hs : ∀ c ∈ s, ¬ (isPySpace c = true ∨ c = '+' ∨ c = '-') := by
    intro c hc hx
    obtain ⟨h1, h2⟩ := space_decimal hx
    rcases h c hc with h | h
    · exact h2 h
    · rw [← decVal_spec, h1] at h
      cases h
  have hd : ∀ {l : List Char}, (∀ c ∈ l, c ∈ s) → l.dropWhile isPySpace = l := by
    intro l hl
    cases l with
    | nil => rfl
    | cons c l => rw [List.dropWhile_cons_of_neg (fun hx => hs c (hl c (by simp)) (.inl hx))]
  unfold pyInt
  rw [hd (fun _ h => h), hd (fun c hc => List.mem_reverse.1 hc), List.reverse_reverse]
  cases s with
  | nil => rfl
  | cons c s =>
    have h1 := hs c (by simp)
    simp only [not_or] at h1
    have : signed (c :: s) = (1, c :: s) := by
      unfold signed
      split
      · rename_i h; injection h with h _; exact absurd h h1.2.1
      · rename_i h; injection h with h _; exact absurd h h1.2.2
      · rfl
    simp only [this, one_mul]
    rfl

/-- `int` of a repeated text: digits, repeated. -/
theorem pyInt_repeated (n : Nat) (s : List Char) : pyInt (repeated (n + 3) s) =
    if Grouped s ∧ ((n + 3) * (s.filterMap decimalOf).length ≤ 4300) then
      .ok (((List.replicate (n + 3) (s.filterMap decimalOf)).flatten.foldl (fun n d => 10 * n + d) 0 : Nat) : Int)
    else .error .valueError := by
  have hfm : ∀ n, (repeated n s).filterMap decimalOf = (List.replicate n (s.filterMap decimalOf)).flatten := by
    intro n
    unfold repeated
    rw [List.filterMap_flatten, List.map_replicate]
  by_cases hall : ∀ c ∈ s, c = '_' ∨ (decimalOf c).isSome
  · have hmem : ∀ c ∈ repeated (n + 3) s, c = '_' ∨ (decimalOf c).isSome := by
      intro c hc
      unfold repeated at hc
      obtain ⟨l, hl, hc⟩ := List.mem_flatten.1 hc
      rw [List.eq_of_mem_replicate hl] at hc
      exact hall c hc
    rw [pyInt_plain hmem, numberDigits_grouped]
    by_cases hg : Grouped s
    · rw [if_pos ((grouped_repeated _ s).2 hg)]
      simp only
      rw [hfm]
      have hlen : ((List.replicate (n + 3) (s.filterMap decimalOf)).flatten).length = (n + 3) * (s.filterMap decimalOf).length := by
        simp
      rw [hlen]
      by_cases hl : (n + 3) * (s.filterMap decimalOf).length ≤ 4300
      · rw [if_neg (by omega), if_pos ⟨hg, hl⟩]
      · rw [if_pos (by omega), if_neg (fun h => hl h.2)]
    · rw [if_neg (fun h => hg ((grouped_repeated _ s).1 h)), if_neg (fun h => hg h.1)]
  · rw [if_neg (fun h => hall h.1.2.1)]
    push Not at hall
    obtain ⟨c, hc, hcu, hcd⟩ := hall
    unfold pyInt
    obtain ⟨P, Q, hs, hP, hQ⟩ := strip_split (repeated (n + 3) s)
    generalize ((List.dropWhile isPySpace (repeated (n + 3) s)).reverse.dropWhile isPySpace).reverse = t at hs
    obtain ⟨sg, u, σ, htu, hsg, hmatch⟩ : ∃ (sg u : List Char) (σ : Int), t = sg ++ u ∧ (∀ c ∈ sg, c = '+' ∨ c = '-') ∧
        signed t = (σ, u) := by
      unfold signed
      split
      · exact ⟨['+'], _, 1, rfl, by simp, rfl⟩
      · exact ⟨['-'], _, -1, rfl, by simp, rfl⟩
      · exact ⟨[], _, 1, rfl, by simp, rfl⟩
    simp only [hmatch]
    rw [numberDigits_grouped]
    by_cases hg : Grouped u
    · exfalso
      obtain ⟨hne, hu, hh, -⟩ := hg
      obtain ⟨d, u', rfl⟩ := List.exists_cons_of_ne_nil hne
      have hd : (decimalOf d).isSome := by
        rcases hu d (by simp) with rfl | h
        · exact absurd rfl hh
        · exact h
      have hnot : ∀ x, isPySpace x = true ∨ x = '+' ∨ x = '-' → x ≠ d := by
        rintro x hx rfl
        rw [← decVal_spec, (space_decimal hx).1] at hd
        cases hd
      have hdt : d ∈ repeated (n + 3) s := by rw [hs, htu]; simp
      have hds : d ∈ s := by
        unfold repeated at hdt
        obtain ⟨l, hl, h⟩ := List.mem_flatten.1 hdt
        rwa [List.eq_of_mem_replicate hl] at h
      obtain ⟨A, B, rfl⟩ := List.append_of_mem hc
      have hrep : repeated (n + 3) (A ++ c :: B) =
          ((A ++ c :: B) ++ A) ++ c :: (B ++ ((A ++ c :: B) ++ repeated n (A ++ c :: B))) := by
        rw [repeated_succ, repeated_succ, repeated_succ]
        simp
      rw [hrep, htu, ← List.append_assoc P sg] at hs
      have := middle_mem hs (List.mem_append_left _ hds) (List.mem_append_right _ (List.mem_append_left _ hds))
        (fun h => by
          rcases List.mem_append.1 h with h | h
          · exact hnot d (.inl (hP d h)) rfl
          · exact hnot d (.inr (hsg d h)) rfl)
        (fun h => hnot d (.inl (hQ d h)) rfl)
      rcases hu c this with h | h
      · exact hcu h
      · exact hcd h
    · rw [if_neg hg]

theorem foldl_numeral (ds : List Nat) (n : Nat) :
    ds.foldl (fun n d => 10 * n + d) n = n * 10 ^ ds.length + numeral ds := by
  induction ds generalizing n with
  | nil => simp [numeral]
  | cons d ds ih =>
    rw [List.foldl_cons, ih, numeral, List.length_cons]
    ring

theorem numeral_append (a b : List Nat) : numeral (a ++ b) = numeral a * 10 ^ b.length + numeral b := by
  induction a with
  | nil => simp [numeral]
  | cons d a ih =>
    rw [List.cons_append, numeral, numeral, ih, List.length_append]
    ring

/-- The number of repeated digits is an odd multiple of the number of the digits. -/
theorem numeral_repeated (n : Nat) {ds : List Nat} (h : ds ≠ []) :
    ∃ r, r % 2 = 1 ∧ numeral (List.replicate (n + 1) ds).flatten = numeral ds * r := by
  induction n with
  | zero => exact ⟨1, rfl, by simp⟩
  | succ n ih =>
    obtain ⟨r, hr, hn⟩ := ih
    refine ⟨10 ^ (List.replicate (n + 1) ds).flatten.length + r, ?_, ?_⟩
    · have hl : (List.replicate (n + 1) ds).flatten.length ≠ 0 := by
        have := List.length_pos_iff.2 h
        rw [List.replicate_succ, List.flatten_cons, List.length_append]
        omega
      obtain ⟨m, hm⟩ := Nat.exists_eq_succ_of_ne_zero hl
      rw [hm, Nat.pow_succ]
      omega
    · rw [List.replicate_succ, List.flatten_cons, numeral_append, hn]
      ring

/-- `int(text * 10)`. -/
theorem pyInt_ten (s : List Char) : pyInt (repeated 10 s) =
    if Grouped s ∧ (digitsOf s).length ≤ 430 then
      .ok (numeral (List.replicate 10 (digitsOf s)).flatten : Int)
    else .error .valueError := by
  rw [pyInt_repeated 7 s, foldl_numeral]
  unfold digitsOf
  have e : (7 + 3) * (s.filterMap decimalOf).length ≤ 4300 ↔ (s.filterMap decimalOf).length ≤ 430 := by omega
  simp only [e, Nat.zero_mul, Nat.zero_add]

theorem digits_ne {s : List Char} (h : Grouped s) : digitsOf s ≠ [] := by
  obtain ⟨h1, h2, h3, -⟩ := h
  obtain ⟨c, s, rfl⟩ := List.exists_cons_of_ne_nil h1
  rcases h2 c (by simp) with rfl | h
  · exact absurd rfl h3
  · obtain ⟨v, hv⟩ := Option.isSome_iff_exists.1 h
    unfold digitsOf
    rw [List.filterMap_cons_some hv]
    exact List.cons_ne_nil _ _

end Knx
