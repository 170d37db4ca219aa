import Verif.Model.Texts
import Verif.Spec.Texts
import Verif.Props.Addresses
import Verif.Lemmas.Text
import Mathlib.Tactic.IntervalCases

/-! # C70: texts of addresses and of the address table -/

namespace Knx
open Spec

theorem dec_digit {n : Nat} (h : n < 10) : (Char.ofNat ('0'.toNat + n), n) ∈ decTable := by
  interval_cases n <;> decide

theorem upper_digit {n : Nat} (h : n < 16) : (hexDigit n, n) ∈ upperTable := by
  interval_cases n <;> decide

theorem dec_zero {n : Nat} (h : n < 10) (h0 : Char.ofNat ('0'.toNat + n) = '0') : n = 0 := by
  interval_cases n <;> first | rfl | exact absurd h0 (by decide)

theorem writes_ne_nil {table : List (Char × Nat)} {b : Nat} {l : List Char} {n : Nat} (h : Digits table b l n) : l ≠ [] := by
  induction h <;> simp

theorem decimalAux_spec (fuel : Nat) : ∀ (n : Nat) (acc : List Char), n < fuel →
    ∃ l, decimalAux fuel n acc = l ++ acc ∧ Digits decTable 10 l n ∧ (l.head? = some '0' → n = 0 ∧ l = ['0']) := by
  induction fuel with
  | zero => intro n acc h; omega
  | succ fuel ih =>
    intro n acc h
    unfold decimalAux
    by_cases h9 : n < 10
    · rw [if_pos h9]
      refine ⟨[Char.ofNat ('0'.toNat + n)], rfl, .one (dec_digit h9), fun h0 => ?_⟩
      simp only [List.head?_cons, Option.some.injEq] at h0
      obtain rfl := dec_zero h9 h0
      exact ⟨rfl, rfl⟩
    · rw [if_neg h9]
      obtain ⟨l, h1, h2, h3⟩ := ih (n / 10) (Char.ofNat ('0'.toNat + n % 10) :: acc) (by omega)
      refine ⟨l ++ [Char.ofNat ('0'.toNat + n % 10)], ?_, ?_, ?_⟩
      · rw [h1, List.append_assoc]; rfl
      · have := Digits.more h2 (dec_digit (n := n % 10) (by omega))
        rwa [show n / 10 * 10 + n % 10 = n by omega] at this
      · intro h0
        rw [List.head?_append] at h0
        cases hl : l.head? with
        | none =>
          rw [List.head?_eq_none_iff] at hl
          exact absurd hl (writes_ne_nil h2)
        | some c =>
          rw [hl] at h0 h3
          simp only [Option.some_or, Option.some.injEq] at h0
          obtain ⟨h4, -⟩ := h3 (by rw [h0])
          omega

theorem decimal_spec (n : Nat) : Decimal (decimal n) n := by
  obtain ⟨l, h1, h2, h3⟩ := decimalAux_spec (n + 1) n [] (by omega)
  rw [List.append_nil] at h1
  unfold decimal
  rw [h1]
  exact ⟨h2, fun h => (h3 h).2⟩

theorem hex4_spec {n : Nat} (h : n < 65536) : Hex4 (hex4 n) n := by
  refine ⟨?_, rfl⟩
  have h1 := Digits.one (b := 16) (upper_digit (n := n / 4096) (by omega))
  have h2 := Digits.more h1 (upper_digit (n := n / 256 % 16) (by omega))
  have h3 := Digits.more h2 (upper_digit (n := n / 16 % 16) (by omega))
  have h4 := Digits.more h3 (upper_digit (n := n % 16) (by omega))
  rwa [show ((n / 4096 * 16 + n / 256 % 16) * 16 + n / 16 % 16) * 16 + n % 16 = n by omega] at h4

/-- Digits write one number only. -/
theorem writes_unique {table : List (Char × Nat)} {b : Nat} (ht : ∀ p ∈ table, ∀ q ∈ table, p.1 = q.1 → p.2 = q.2)
    {l : List Char} {n m : Nat} (h : Digits table b l n) (h' : Digits table b l m) : n = m := by
  have single : ∀ {l : List Char} {k : Nat} {c d : Char}, Digits table b l k → l ++ [c] ≠ [d] := by
    intro l k c d h he
    have := writes_ne_nil h
    cases l with
    | nil => exact this rfl
    | cons x l => simp at he
  induction h generalizing m with
  | one hc =>
    generalize hl : [_] = l' at h'
    cases h' with
    | one hc' =>
      injection hl with hl
      subst hl
      exact ht _ hc _ hc' rfl
    | more h'' hc' => exact absurd hl.symm (single h'')
  | more h hc ih =>
    generalize hl : _ ++ [_] = l' at h'
    cases h' with
    | one hc' => exact absurd hl (single h)
    | more h'' hc' =>
      obtain ⟨rfl, hd⟩ := List.append_inj' hl rfl
      injection hd with hd
      subst hd
      have := ht _ hc _ hc' rfl
      simp only at this
      rw [ih h'', this]

theorem decTable_unique : ∀ p ∈ decTable, ∀ q ∈ decTable, p.1 = q.1 → p.2 = q.2 := by decide

theorem upperTable_unique : ∀ p ∈ upperTable, ∀ q ∈ upperTable, p.1 = q.1 → p.2 = q.2 := by decide

theorem writes_mem {table : List (Char × Nat)} {b : Nat} {l : List Char} {n : Nat} (h : Digits table b l n) :
    ∀ c ∈ l, c ∈ table.map Prod.fst := by
  induction h with
  | one hc =>
    intro c h
    rw [List.mem_singleton] at h
    subst h
    exact List.mem_map.2 ⟨_, hc, rfl⟩
  | more _ hc ih =>
    intro c h
    rcases List.mem_append.1 h with h | h
    · exact ih c h
    · rw [List.mem_singleton] at h
      subst h
      exact List.mem_map.2 ⟨_, hc, rfl⟩

theorem decimal_inj {n m : Nat} (h : decimal n = decimal m) : n = m :=
  writes_unique decTable_unique (h ▸ (decimal_spec n).1) (decimal_spec m).1

theorem hex4_inj {a b : BitVec 16} (h : hex4 a.toNat = hex4 b.toNat) : a = b :=
  BitVec.eq_of_toNat_eq (writes_unique upperTable_unique (h ▸ (hex4_spec a.isLt).1) (hex4_spec b.isLt).1)

/-! ## Addresses -/

/-- C70: the text of an address is its number with four upper-case hexadecimal digits, and no two addresses have the same
text. -/
theorem c70_address (a b : BitVec 16) :
    (∃ h, addressText a = "0x".toList ++ h ∧ Hex4 h a.toNat) ∧ (addressText a = addressText b ↔ a = b) :=
  ⟨⟨_, rfl, hex4_spec a.isLt⟩, fun h => hex4_inj (by injection h with _ h; injection h), fun h => by rw [h]⟩

example : addressText 0x110A = "0x110A".toList := by decide +kernel

/-- C70: the text of a group address shows the address in the three notations, each denoting it. -/
theorem c70_group (a : BitVec 16) : GroupText (groupText a) a.toNat := by
  obtain ⟨h1, h2, h3, h4, h5, h6, h7⟩ := c04_read a
  exact ⟨_, _, _, _, _, _, _, _, _, _, _, hex4_spec a.isLt, decimal_spec _, decimal_spec _, decimal_spec _, decimal_spec _,
    decimal_spec _, h5, h2, h3, by omega, by omega, rfl⟩

/-- C70: there is only one such text for an address, and no two addresses have the same text. -/
theorem c70_group_unique (a b : BitVec 16) (l : List Char) (h : GroupText l a.toNat) (h' : GroupText l b.toNat) : a = b := by
  obtain ⟨h1, a1, b1, c1, d1, e1, A, B, C, D, E, ⟨g1, g2⟩, -, -, -, -, -, -, -, -, -, -, hl⟩ := h
  obtain ⟨h2, a2, b2, c2, d2, e2, A', B', C', D', E', ⟨k1, k2⟩, -, -, -, -, -, -, -, -, -, -, hl'⟩ := h'
  subst hl
  simp only [List.append_assoc] at hl'
  have := (List.append_inj hl' rfl).2
  have := (List.append_inj this (by rw [g2, k2])).1
  subst this
  exact BitVec.eq_of_toNat_eq (writes_unique upperTable_unique g1 k1)

theorem groupText_inj {a b : BitVec 16} (h : groupText a = groupText b) : a = b :=
  c70_group_unique a b _ (c70_group a) (h ▸ c70_group b)

example : groupText 0x0901 = "(0x0901 1/257 1/1/1)".toList := by decide +kernel
example : GroupText "(0xABCD 21/973 21/3/205)".toList (0xABCD : BitVec 16).toNat := by
  have : groupText 0xABCD = "(0xABCD 21/973 21/3/205)".toList := by decide +kernel
  exact this ▸ c70_group 0xABCD

/-- C70: the components a group address was built from, if in range, are the ones its text shows. -/
theorem c70_components (main middle sub : Nat) (h1 : main < 32) (h2 : middle < 8) (h3 : sub < 256) :
    groupText (ofThree main middle sub) =
      "(0x".toList ++ hex4 (main * 2048 + middle * 256 + sub) ++ " ".toList ++
      decimal main ++ "/".toList ++ decimal (middle * 256 + sub) ++ " ".toList ++
      decimal main ++ "/".toList ++ decimal middle ++ "/".toList ++ decimal sub ++ ")".toList := by
  obtain ⟨e1, e2, e3, -⟩ := c04_three main middle sub h1 h2 h3
  have e : (ofThree main middle sub).toNat = main * 2048 + middle * 256 + sub := by
    have := ofThree_toNat main middle sub
    omega
  unfold groupText
  rw [e1, e2, e]

example : groupText (ofThree 2 2 2) = "(0x1202 2/514 2/2/2)".toList :=
  (c70_components 2 2 2 (by decide) (by decide) (by decide)).trans (by decide +kernel)

/-! ## The address table -/

theorem decimal_chars {n : Nat} {c : Char} (h : c ∈ decimal n) : c ∈ decTable.map Prod.fst :=
  writes_mem (decimal_spec n).1 c h

theorem hex4_chars {a : BitVec 16} {c : Char} (h : c ∈ hex4 a.toNat) : c ∈ upperTable.map Prod.fst :=
  writes_mem (hex4_spec a.isLt).1 c h

theorem newline_decimal (n : Nat) : '\n' ∉ decimal n := fun h => absurd (decimal_chars h) (by decide)

theorem newline_hex (a : BitVec 16) : '\n' ∉ hex4 a.toNat := fun h => absurd (hex4_chars h) (by decide)

theorem newline_address (a : BitVec 16) : '\n' ∉ addressText a := by
  unfold addressText
  simp [newline_hex]

theorem newline_group (a : BitVec 16) : '\n' ∉ groupText a := by
  unfold groupText
  simp [newline_decimal, newline_hex]

/-- The lines of a text without newlines in them can be read off it. -/
theorem unlines_inj {ls ls' : List (List Char)} (h : ∀ l ∈ ls, '\n' ∉ l) (h' : ∀ l ∈ ls', '\n' ∉ l)
    (he : unlines ls = unlines ls') : ls = ls' := by
  have key : ∀ (l l' r r' : List Char), '\n' ∉ l → '\n' ∉ l' → l ++ '\n' :: r = l' ++ '\n' :: r' → l = l' ∧ r = r' := by
    intro l
    induction l with
    | nil =>
      intro l' r r' _ h' he
      cases l' with
      | nil => exact ⟨rfl, by injection he⟩
      | cons c l' =>
        injection he with h1 _
        exact absurd (h1 ▸ List.mem_cons_self) h'
    | cons c l ih =>
      intro l' r r' h h' he
      cases l' with
      | nil =>
        injection he with h1 _
        exact absurd (h1.symm ▸ List.mem_cons_self) h
      | cons c' l' =>
        injection he with h1 h2
        obtain ⟨h3, h4⟩ := ih l' r r' (fun hc => h (List.mem_cons_of_mem _ hc)) (fun hc => h' (List.mem_cons_of_mem _ hc)) h2
        exact ⟨by rw [h1, h3], h4⟩
  unfold unlines at he
  induction ls generalizing ls' with
  | nil =>
    cases ls' with
    | nil => rfl
    | cons l ls' => simp at he
  | cons l ls ih =>
    cases ls' with
    | nil => simp at he
    | cons l' ls' =>
      simp only [List.flatMap_cons, List.append_assoc, List.singleton_append] at he
      obtain ⟨rfl, h2⟩ := key _ _ _ _ (h _ List.mem_cons_self) (h' _ List.mem_cons_self) he
      rw [ih (fun l hl => h l (List.mem_cons_of_mem _ hl)) (fun l hl => h' l (List.mem_cons_of_mem _ hl)) h2]

/-- The line of the `n`-th group address. -/
def entryLine (n : Nat) (a : BitVec 16) : List Char := "    ".toList ++ decimal n ++ " -> ".toList ++ groupText a

theorem newline_entry (n : Nat) (a : BitVec 16) : '\n' ∉ entryLine n a := by
  unfold entryLine
  simp [newline_decimal, newline_group]

theorem entries_lines (n : Nat) (as : List Addr) :
    AddressTable.entries n as = unlines (as.zipIdx.map fun p => entryLine (n + p.2) p.1.fs) := by
  suffices h : ∀ k, AddressTable.entries (n + k) as = unlines ((as.zipIdx k).map fun p => entryLine (n + p.2) p.1.fs) from
    h 0
  induction as with
  | nil => intro k; rfl
  | cons a as ih =>
    intro k
    rw [List.zipIdx_cons, List.map_cons]
    unfold AddressTable.entries unlines
    rw [List.flatMap_cons, show n + k + 1 = n + (k + 1) by omega, ih (k + 1)]
    simp [entryLine, unlines]

theorem text_lines (t : AddressTable) :
    t.text = unlines (
      ["AddressTable: individual address: ".toList ++ addressText t.ind.fs ++ ", max_size=".toList ++ decimal t.maxSize,
       [], "    tsap -> individual address".toList, "    0 -> ".toList ++ addressText t.ind.fs,
       "    tsap -> group address (hex_free_style two_level_style three_level_style)".toList] ++
      t.gas.zipIdx.map fun p => entryLine (1 + p.2) p.1.fs) := by
  have e := entries_lines 1 t.gas
  unfold unlines at e ⊢
  rw [List.flatMap_append, ← e]
  unfold AddressTable.text
  rw [show "    tsap -> individual address\n".toList = "    tsap -> individual address".toList ++ ['\n'] by decide,
    show "    tsap -> group address (hex_free_style two_level_style three_level_style)\n".toList =
      "    tsap -> group address (hex_free_style two_level_style three_level_style)".toList ++ ['\n'] by decide,
    show "\n\n".toList = ['\n', '\n'] from rfl, show "\n".toList = ['\n'] from rfl]
  simp only [List.flatMap_cons, List.flatMap_nil, List.append_assoc, List.nil_append, List.append_nil, List.cons_append]

/-- C70: the text of an address table has one line for the own address, numbered 0, and one for each group address,
numbered by a TSAP of the table; under that TSAP the table finds the address the line shows. -/
theorem c70_table (t : AddressTable) :
    ∃ ls : List (List Char), t.text = unlines (
        ["AddressTable: individual address: ".toList ++ addressText t.ind.fs ++ ", max_size=".toList ++ decimal t.maxSize,
         [], "    tsap -> individual address".toList, "    0 -> ".toList ++ addressText t.ind.fs,
         "    tsap -> group address (hex_free_style two_level_style three_level_style)".toList] ++ ls) ∧
      ls.length = t.gas.length ∧
      ∀ i, i < ls.length → ∃ d g a, ls[i]? = some ("    ".toList ++ d ++ " -> ".toList ++ g) ∧ Decimal d (i + 1) ∧
        t.getAddress (i + 1) = .ok a ∧ GroupText g a.fs.toNat := by
  refine ⟨_, text_lines t, by simp, ?_⟩
  intro i hi
  have hi' : i < t.gas.length := by simpa using hi
  refine ⟨decimal (i + 1), groupText t.gas[i].fs, t.gas[i], ?_, decimal_spec _, ?_, c70_group _⟩
  · rw [List.getElem?_map, List.getElem?_zipIdx, List.getElem?_eq_getElem hi']
    simp [entryLine, Nat.add_comm]
  · unfold AddressTable.getAddress
    rw [if_pos (by omega), show ((i : Int) + 1 - 1).toNat = i by omega, List.getElem?_eq_getElem hi']

/-- C70: two address tables have the same text exactly when they have the same own address, the same maximal size and
the same group addresses. -/
theorem c70_table_inj (t t' : AddressTable) :
    t.text = t'.text ↔ t.ind.fs = t'.ind.fs ∧ t.maxSize = t'.maxSize ∧ t.gas.map Addr.fs = t'.gas.map Addr.fs := by
  constructor
  · intro h
    rw [text_lines, text_lines] at h
    have hn : ∀ t : AddressTable, ∀ l ∈
        (["AddressTable: individual address: ".toList ++ addressText t.ind.fs ++ ", max_size=".toList ++ decimal t.maxSize,
         [], "    tsap -> individual address".toList, "    0 -> ".toList ++ addressText t.ind.fs,
         "    tsap -> group address (hex_free_style two_level_style three_level_style)".toList] ++
         t.gas.zipIdx.map fun p => entryLine (1 + p.2) p.1.fs), '\n' ∉ l := by
      intro t l hl
      simp only [List.cons_append, List.nil_append, List.mem_cons, List.mem_map] at hl
      rcases hl with rfl | rfl | rfl | rfl | rfl | ⟨p, -, rfl⟩
      · simp [newline_address, newline_decimal]
      · simp
      · decide
      · simp [newline_address]
      · decide
      · exact newline_entry _ _
    have e := unlines_inj (hn t) (hn t') h
    injection e with e1 e
    injection e with _ e
    injection e with _ e
    injection e with e2 e
    injection e with _ e
    have hi : t.ind.fs = t'.ind.fs := ((c70_address _ _).2).1 (List.append_cancel_left e2)
    rw [hi] at e1
    refine ⟨hi, decimal_inj (List.append_cancel_left e1), ?_⟩
    have hl : t.gas.length = t'.gas.length := by simpa using congrArg List.length e
    refine List.ext_getElem (by simpa using hl) ?_
    intro i h1 h2
    have h1' : i < t.gas.length := by simpa using h1
    have h2' : i < t'.gas.length := by simpa using h2
    have := congrArg (·[i]?) (show t.gas.zipIdx.map (fun p => entryLine (1 + p.2) p.1.fs) =
      t'.gas.zipIdx.map fun p => entryLine (1 + p.2) p.1.fs from e)
    simp only [List.getElem?_map, List.getElem?_zipIdx, List.getElem?_eq_getElem h1',
      List.getElem?_eq_getElem h2', Option.map_some, Option.some.injEq, entryLine, List.append_assoc,
      List.append_cancel_left_eq] at this
    simpa using groupText_inj this
  · rintro ⟨h1, h2, h3⟩
    have he : ∀ (as bs : List Addr) (n : Nat), as.map Addr.fs = bs.map Addr.fs →
        AddressTable.entries n as = AddressTable.entries n bs := by
      intro as
      induction as with
      | nil =>
        intro bs n h
        cases bs with
        | nil => rfl
        | cons b bs => cases h
      | cons a as ih =>
        intro bs n h
        cases bs with
        | nil => cases h
        | cons b bs =>
          simp only [List.map_cons, List.cons.injEq] at h
          unfold AddressTable.entries
          rw [h.1, ih bs (n + 1) h.2]
    unfold AddressTable.text
    rw [h1, h2, he _ _ 1 h3]

/-- The doctest of the table (address_table.py:65-74). -/
example : (AddressTable.init ⟨0, 0x1002⟩ [⟨3, 0xCC⟩, ⟨1, 0xAA⟩, ⟨2, 0xBB⟩] 255).text =
    "AddressTable: individual address: 0x1002, max_size=255\n\n    tsap -> individual address\n    0 -> 0x1002\n".toList ++
    "    tsap -> group address (hex_free_style two_level_style three_level_style)\n    1 -> (0x00AA 0/170 0/0/170)\n".toList ++
    "    2 -> (0x00BB 0/187 0/0/187)\n    3 -> (0x00CC 0/204 0/0/204)\n".toList := by decide +kernel

example : (AddressTable.init ⟨0, 0x1002⟩ [⟨3, 0xCC⟩, ⟨1, 0xAA⟩] 255).text =
    (AddressTable.init ⟨7, 0x1002⟩ [⟨1, 0xAA⟩, ⟨3, 0xCC⟩] 255).text :=
  (c70_table_inj _ _).2 (by decide)

end Knx
