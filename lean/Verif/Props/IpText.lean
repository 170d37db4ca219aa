import Verif.Model.IpText
import Verif.Spec.IpText
import Verif.Props.Texts
import Verif.Props.Tunnelling

/-!
# C80 IP addresses as text
-/

namespace Knx

open Spec

/-! Digits and numbers. -/

/-- The digits to a base. -/
def baseTable (b : Nat) : List (Char × Nat) := hexTable.filter fun p => p.2 < b

theorem baseTable_dec : baseTable 10 = decTable := by decide
theorem baseTable_oct : baseTable 8 = octTable := by decide
theorem baseTable_hex : baseTable 16 = hexTable := by decide

theorem mem_baseTable {b : Nat} {c : Char} {v : Nat} : (c, v) ∈ baseTable b ↔ hexVal c = some v ∧ v < b := by
  unfold baseTable
  rw [List.mem_filter, hexVal_some_iff]
  unfold HexDigit
  simp

/-- A rest that no digit to the base begins. -/
def Stops (b : Nat) (rest : List Char) : Prop := ∀ c ∈ rest.head?, ∀ v, (c, v) ∉ baseTable b

theorem strtoDigits_stop {b : Nat} {rest : List Char} (h : Stops b rest) (acc : Nat) :
    strtoDigits b acc rest = (acc, rest) := by
  rcases rest with _ | ⟨c, rest⟩
  · rfl
  · unfold strtoDigits
    have h' := h c (by simp)
    rcases hv : hexVal c with _ | v
    · rfl
    · simp only
      rw [if_neg]
      intro hb
      exact h' v (mem_baseTable.2 ⟨hv, hb⟩)

theorem strtoDigits_step {b : Nat} {c : Char} {v : Nat} (h : (c, v) ∈ baseTable b) (acc : Nat) (l : List Char) :
    strtoDigits b acc (c :: l) = strtoDigits b (acc * b + v) l := by
  obtain ⟨h1, h2⟩ := mem_baseTable.1 h
  conv_lhs => unfold strtoDigits
  rw [h1]
  simp only
  rw [if_pos h2]

theorem strtoDigits_app {b : Nat} {l : List Char} {n : Nat} (h : Digits (baseTable b) b l n) (rest : List Char) :
    strtoDigits b 0 (l ++ rest) = strtoDigits b n rest := by
  induction h generalizing rest with
  | one hc =>
    rw [List.singleton_append, strtoDigits_step hc]
    simp
  | more _ hc ih =>
    rw [List.append_assoc, ih, List.singleton_append, strtoDigits_step hc]

theorem strtoDigits_read {b : Nat} (l : List Char) : ∀ (p : List Char) (n : Nat), Digits (baseTable b) b p n →
    ∃ q, Digits (baseTable b) b (p ++ q) (strtoDigits b n l).1 ∧ l = q ++ (strtoDigits b n l).2 := by
  induction l with
  | nil => exact fun p n h => ⟨[], by simpa [strtoDigits] using h, rfl⟩
  | cons c l ih =>
    intro p n h
    rcases hv : hexVal c with _ | v
    · refine ⟨[], ?_, ?_⟩ <;> simp [strtoDigits, hv, h]
    · by_cases hb : v < b
      · have hm := mem_baseTable.2 ⟨hv, hb⟩
        obtain ⟨q, h1, h2⟩ := ih (p ++ [c]) (n * b + v) (.more h hm)
        refine ⟨c :: q, ?_, ?_⟩
        · rw [strtoDigits_step hm]
          simpa using h1
        · rw [strtoDigits_step hm, List.cons_append, ← h2]
      · refine ⟨[], ?_, ?_⟩ <;> simp [strtoDigits, hv, h, hb]

theorem strtoDigits_first {b : Nat} {c : Char} {v : Nat} (h : (c, v) ∈ baseTable b) (l : List Char) :
    ∃ p, Digits (baseTable b) b p (strtoDigits b 0 (c :: l)).1 ∧ c :: l = p ++ (strtoDigits b 0 (c :: l)).2 ∧
      p.head? = some c := by
  obtain ⟨q, h1, h2⟩ := strtoDigits_read l [c] v (.one h)
  rw [strtoDigits_step h, Nat.zero_mul, Nat.zero_add]
  exact ⟨[c] ++ q, h1, by rw [List.append_assoc, ← h2]; rfl, rfl⟩

/-- A character that begins what may follow a number of an address. -/
theorem stop_chars : ∀ b ≤ 16, ∀ c ∈ '.' :: blanks, ∀ v, (c, v) ∉ baseTable b := by
  intro b _ c hc v hv
  have h1 := (mem_baseTable.1 hv).1
  rw [hexVal_some_iff] at h1
  revert h1
  unfold HexDigit
  have : ∀ c ∈ '.' :: blanks, c ∉ hexTable.map Prod.fst := by decide
  exact fun h => this c hc (List.mem_map_of_mem (f := Prod.fst) h)

/-- What may follow a number of an address. -/
def Follows (rest : List Char) : Prop := ∀ c ∈ rest.head?, c ∈ '.' :: blanks

theorem Follows.stops {rest : List Char} (h : Follows rest) {b : Nat} (hb : b ≤ 16) : Stops b rest :=
  fun c hc v => stop_chars b hb c (h c hc) v

theorem hexVal_zero : hexVal '0' = some 0 := by decide

theorem strtoul_dec {l : List Char} (h : l.head? ≠ some '0') : strtoul l = strtoDigits 10 0 l := by
  rcases l with _ | ⟨c, l⟩
  · rfl
  · have hc : c ≠ '0' := fun e => h (by rw [e]; rfl)
    unfold strtoul
    split
    · rename_i e
      exact absurd (List.cons.inj e).1 hc
    · rename_i e
      exact absurd (List.cons.inj e).1 hc
    · rfl

theorem strtoul_hex {x c : Char} {l : List Char} (hx : x = 'x' ∨ x = 'X') (hc : (hexVal c).isSome) :
    strtoul ('0' :: x :: c :: l) = strtoDigits 16 0 (c :: l) := by
  conv_lhs => unfold strtoul
  simp only
  rw [if_pos ⟨hx, hc⟩]

theorem strtoul_oct {l : List Char} (h : ∀ x c r, l = x :: c :: r → ¬ ((x = 'x' ∨ x = 'X') ∧ (hexVal c).isSome)) :
    strtoul ('0' :: l) = strtoDigits 8 0 ('0' :: l) := by
  rcases l with _ | ⟨x, _ | ⟨c, l⟩⟩
  · rfl
  · rfl
  · conv_lhs => unfold strtoul
    simp only
    rw [if_neg (h x c l rfl)]

theorem digits_head {table : List (Char × Nat)} {b : Nat} {l : List Char} {n : Nat} (h : Digits table b l n) :
    ∃ c r v, l = c :: r ∧ (c, v) ∈ table := by
  induction h with
  | one hc => exact ⟨_, [], _, rfl, hc⟩
  | more _ _ ih =>
    obtain ⟨c, r, v, rfl, hc⟩ := ih
    exact ⟨c, r ++ _, v, rfl, hc⟩

/-- A number of an address is read as a whole. -/
theorem strtoul_number {p : List Char} {n : Nat} (h : CNumber p n) {rest : List Char} (hr : Follows rest) :
    strtoul (p ++ rest) = (n, rest) := by
  rcases h with ⟨hd, h0⟩ | ⟨hd, h0⟩ | ⟨x, r, rfl, hx, hd⟩
  · obtain ⟨c, r, v, rfl, hc⟩ := digits_head hd
    rw [strtoul_dec (by simpa using h0)]
    rw [← baseTable_dec] at hd
    rw [strtoDigits_app hd, strtoDigits_stop (hr.stops (by norm_num))]
  · obtain ⟨c, r, v, rfl, hc⟩ := digits_head hd
    have hc0 : c = '0' := by simpa using h0
    subst hc0
    have hm := writes_mem hd
    rw [List.cons_append, strtoul_oct, ← List.cons_append]
    · rw [← baseTable_oct] at hd
      rw [strtoDigits_app hd, strtoDigits_stop (hr.stops (by norm_num))]
    · intro x c s e
      rintro ⟨hx, -⟩
      rcases r with _ | ⟨y, r⟩
      · have := hr x (by rw [List.nil_append] at e; rw [e]; rfl)
        rcases hx with rfl | rfl <;> revert this <;> decide
      · rw [List.cons_append] at e
        obtain ⟨rfl, -⟩ := List.cons.inj e
        have := hm y (by simp)
        rcases hx with rfl | rfl <;> revert this <;> decide
  · obtain ⟨c, s, v, rfl, hc⟩ := digits_head hd
    have hs : hexVal c = some v := (hexVal_some_iff c v).2 hc
    rw [List.cons_append, List.cons_append, List.cons_append, strtoul_hex hx (by rw [hs]; rfl), ← List.cons_append]
    rw [← baseTable_hex] at hd
    rw [strtoDigits_app hd, strtoDigits_stop (hr.stops (by norm_num))]

/-- What is read is a number. -/
theorem strtoul_read {c : Char} {l : List Char} (h : '0' ≤ c ∧ c ≤ '9') :
    ∃ p, CNumber p (strtoul (c :: l)).1 ∧ c :: l = p ++ (strtoul (c :: l)).2 := by
  by_cases hc : c = '0'
  · subst hc
    by_cases hx : ∃ x d r, l = x :: d :: r ∧ (x = 'x' ∨ x = 'X') ∧ (hexVal d).isSome
    · obtain ⟨x, d, r, rfl, hx, hd⟩ := hx
      obtain ⟨v, hv⟩ := Option.isSome_iff_exists.1 hd
      have hm : (d, v) ∈ baseTable 16 := mem_baseTable.2 ⟨hv, hexDigit_value ((hexVal_some_iff d v).1 hv)⟩
      obtain ⟨p, h1, h2, -⟩ := strtoDigits_first hm r
      rw [strtoul_hex hx hd]
      rw [baseTable_hex] at h1
      exact ⟨'0' :: x :: p, .inr (.inr ⟨x, p, rfl, hx, h1⟩), by rw [List.cons_append, List.cons_append, ← h2]⟩
    · rw [strtoul_oct (fun x d r e he => hx ⟨x, d, r, e, he⟩)]
      have hm : ('0', 0) ∈ baseTable 8 := mem_baseTable.2 ⟨hexVal_zero, by norm_num⟩
      obtain ⟨p, h1, h2, h3⟩ := strtoDigits_first hm l
      rw [baseTable_oct] at h1
      exact ⟨p, .inr (.inl ⟨h1, h3⟩), h2⟩
  · rw [strtoul_dec (by simpa using hc)]
    have hm : ∃ v, (c, v) ∈ baseTable 10 := by
      refine ⟨c.toNat - '0'.toNat, mem_baseTable.2 ⟨?_, ?_⟩⟩
      · unfold hexVal
        rw [if_pos h]
      · have h2 : c.toNat ≤ '9'.toNat := h.2
        have : '9'.toNat = 57 := rfl
        have : '0'.toNat = 48 := rfl
        omega
    obtain ⟨v, hv⟩ := hm
    obtain ⟨p, h1, h2, h3⟩ := strtoDigits_first hv l
    rw [baseTable_dec] at h1
    exact ⟨p, .inl ⟨h1, by rw [h3]; simpa using hc⟩, h2⟩

theorem number_first {p : List Char} {n : Nat} (h : CNumber p n) : ∃ c r, p = c :: r ∧ '0' ≤ c ∧ c ≤ '9' := by
  have ht : ∀ c v, (c, v) ∈ decTable → '0' ≤ c ∧ c ≤ '9' := by
    intro c v h
    have : ∀ x ∈ decTable, '0' ≤ x.1 ∧ x.1 ≤ '9' := by decide
    exact this _ h
  rcases h with ⟨hd, h0⟩ | ⟨hd, h0⟩ | ⟨x, r, rfl, hx, hd⟩
  · obtain ⟨c, r, v, rfl, hc⟩ := digits_head hd
    exact ⟨c, r, rfl, ht c v hc⟩
  · obtain ⟨c, r, v, rfl, hc⟩ := digits_head hd
    have : c = '0' := by simpa using h0
    subst this
    exact ⟨'0', r, rfl, by decide⟩
  · exact ⟨'0', x :: r, rfl, by decide⟩

theorem inetParts_dot {p : List Char} {n : Nat} (h : CNumber p n) (hn : n < 256) (rest : List Char) (k acc : Nat) :
    inetParts (k + 1) acc (p ++ '.' :: rest) = inetParts k (acc * 256 + n) rest := by
  obtain ⟨c, r, rfl, hc⟩ := number_first h
  have hs := strtoul_number h (rest := '.' :: rest) (fun c hc => by simp at hc; subst hc; decide)
  rw [List.cons_append] at hs ⊢
  conv_lhs => unfold inetParts
  rw [if_pos hc, hs]
  simp only
  rw [if_neg (by omega), if_neg (by omega)]

theorem trailer_follows {rest : List Char} (h : Trailer rest) : Follows rest :=
  fun c hc => List.mem_cons_of_mem _ (h c hc)

theorem inetParts_last {p : List Char} {n : Nat} (h : CNumber p n) {rest : List Char} (hr : Trailer rest) {k : Nat}
    (hk : k ≤ 3) (hn : n < 256 ^ (k + 1)) (acc : Nat) :
    inetParts k acc (p ++ rest) = some (acc * 256 ^ (k + 1) + n, rest) := by
  obtain ⟨c, r, rfl, hc⟩ := number_first h
  have hs := strtoul_number h (trailer_follows hr)
  rw [List.cons_append] at hs ⊢
  unfold inetParts
  rw [if_pos hc, hs]
  simp only
  have hlt : 256 ^ (k + 1) ≤ 256 ^ 4 := Nat.pow_le_pow_right (by norm_num) (by omega)
  rw [if_neg (by norm_num at hlt; omega)]
  split
  · rename_i rest' e
    have : ('.' : Char) ∈ blanks := hr '.' (by simp)
    exact absurd this (by decide)
  · rw [if_pos hn]

theorem inetParts_read {k acc : Nat} {l rest : List Char} {a : Nat} (h : inetParts k acc l = some (a, rest)) :
    ∃ p n, CNumber p n ∧
      ((∃ k' rest', k = k' + 1 ∧ l = p ++ '.' :: rest' ∧ n < 256 ∧ inetParts k' (acc * 256 + n) rest' = some (a, rest)) ∨
        (l = p ++ rest ∧ n < 256 ^ (k + 1) ∧ a = acc * 256 ^ (k + 1) + n)) := by
  rcases l with _ | ⟨c, l⟩
  · cases k <;> simp [inetParts] at h
  · unfold inetParts at h
    by_cases hc : '0' ≤ c ∧ c ≤ '9'
    · rw [if_pos hc] at h
      obtain ⟨p, h1, h2⟩ := strtoul_read (l := l) hc
      generalize strtoul (c :: l) = s at h h1 h2
      obtain ⟨v, r⟩ := s
      simp only at h h1 h2
      refine ⟨p, v, h1, ?_⟩
      by_cases hv : 0xFFFFFFFF < v
      · rw [if_pos hv] at h
        cases h
      · rw [if_neg hv] at h
        split at h
        · rename_i rest'
          rcases k with _ | k
          · simp at h
          · simp only at h
            by_cases h8 : 0xFF < v
            · rw [if_pos h8] at h
              cases h
            · rw [if_neg h8] at h
              exact .inl ⟨k, rest', rfl, h2, by omega, h⟩
        · by_cases hn : v < 256 ^ (k + 1)
          · rw [if_pos hn] at h
            cases h
            exact .inr ⟨h2, hn, rfl⟩
          · rw [if_neg hn] at h
            cases h
    · rw [if_neg hc] at h
      cases h

/-- The loop of `inet_aton` reads exactly the dotted numbers. -/
theorem inetParts_iff {l rest : List Char} (hr : Trailer rest) {a : Nat} :
    inetParts 3 0 l = some (a, rest) ↔ ∃ l', l = l' ++ rest ∧ Dotted l' a := by
  constructor
  · intro h
    obtain ⟨p, n, hp, ⟨k, r1, hk, rfl, hn, h⟩ | ⟨rfl, hn, rfl⟩⟩ := inetParts_read h
    · obtain rfl : k = 2 := by omega
      obtain ⟨q, m, hq, ⟨k, r2, hk, rfl, hm, h⟩ | ⟨rfl, hm, rfl⟩⟩ := inetParts_read h
      · obtain rfl : k = 1 := by omega
        obtain ⟨r, i, hi, ⟨k, r3, hk, rfl, hii, h⟩ | ⟨rfl, hii, rfl⟩⟩ := inetParts_read h
        · obtain rfl : k = 0 := by omega
          obtain ⟨s, j, hs, ⟨k, r4, hk, rfl, hj, h⟩ | ⟨rfl, hj, rfl⟩⟩ := inetParts_read h
          · omega
          · refine ⟨p ++ '.' :: q ++ '.' :: r ++ '.' :: s, by simp, .inr (.inr (.inr ⟨p, q, r, s, n, m, i, j, hp, hq, hi, hs,
              hn, hm, hii, hj, rfl, by norm_num; ring⟩))⟩
        · exact ⟨p ++ '.' :: q ++ '.' :: r, by simp, .inr (.inr (.inl ⟨p, q, r, n, m, i, hp, hq, hi, hn, hm, hii, rfl,
            by norm_num; ring⟩))⟩
      · exact ⟨p ++ '.' :: q, by simp, .inr (.inl ⟨p, q, n, m, hp, hq, hn, hm, rfl, by norm_num; ring⟩)⟩
    · exact ⟨p, rfl, .inl ⟨p, n, hp, hn, rfl, by norm_num⟩⟩
  · rintro ⟨l', rfl, ⟨p, n, hp, hn, rfl, rfl⟩ | ⟨p, q, n, m, hp, hq, hn, hm, rfl, rfl⟩ |
      ⟨p, q, r, n, m, i, hp, hq, hi, hn, hm, hii, rfl, rfl⟩ | ⟨p, q, r, s, n, m, i, j, hp, hq, hi, hs, hn, hm, hii, hj, rfl, rfl⟩⟩
    · rw [inetParts_last hp hr (by norm_num) hn]
      norm_num
    · rw [List.append_assoc, List.cons_append, inetParts_dot hp hn, inetParts_last hq hr (by norm_num) hm]
      norm_num
      ring
    · simp only [List.append_assoc, List.cons_append]
      rw [inetParts_dot hp hn, inetParts_dot hq hm, inetParts_last hi hr (by norm_num) hii]
      norm_num
      ring
    · simp only [List.append_assoc, List.cons_append]
      rw [inetParts_dot hp hn, inetParts_dot hq hm, inetParts_dot hi hii, inetParts_last hs hr (by norm_num) hj]
      norm_num
      ring

theorem isHexSpace_blank (c : Char) : isHexSpace c = true ↔ c ∈ blanks := by
  unfold isHexSpace blanks
  simp
  tauto

theorem inetAton_iff (l : List Char) (x : BitVec 32) :
    inetAton l = .ok x ↔ Char.ofNat 0 ∉ l ∧
      ∃ l' tail a, l = l' ++ tail ∧ Dotted l' a ∧ Trailer tail ∧ x = BitVec.ofNat 32 a := by
  unfold inetAton
  by_cases h0 : Char.ofNat 0 ∈ l
  · rw [if_pos h0]
    simp [h0]
  · rw [if_neg h0]
    constructor
    · intro h
      refine ⟨h0, ?_⟩
      rcases hp : inetParts 3 0 l with _ | ⟨a, _ | ⟨c, r⟩⟩
      · rw [hp] at h
        cases h
      · rw [hp] at h
        obtain ⟨l', rfl, hd⟩ := (inetParts_iff (fun c hc => by simp at hc)).1 hp
        exact ⟨l', [], a, rfl, hd, fun c hc => by simp at hc, (Except.ok.inj h).symm⟩
      · rw [hp] at h
        simp only at h
        by_cases hs : isHexSpace c = true
        · have ht : Trailer (c :: r) := fun d hd => by
            simp at hd
            subst hd
            exact (isHexSpace_blank _).1 hs
          rw [if_pos hs] at h
          obtain ⟨l', rfl, hd⟩ := (inetParts_iff ht).1 hp
          exact ⟨l', c :: r, a, rfl, hd, ht, (Except.ok.inj h).symm⟩
        · rw [if_neg hs] at h
          cases h
    · rintro ⟨-, l', tail, a, rfl, hd, ht, rfl⟩
      rw [(inetParts_iff ht).2 ⟨l', rfl, hd⟩]
      rcases tail with _ | ⟨c, r⟩
      · rfl
      · simp only
        rw [if_pos ((isHexSpace_blank c).2 (ht c (by simp)))]

/-! Decimal notation is unique. -/

theorem dec_value {c : Char} {v : Nat} (h : (c, v) ∈ decTable) : v < 10 := by
  have : ∀ p ∈ decTable, p.2 < 10 := by decide
  exact this _ h

theorem dec_char {c d : Char} {v : Nat} (h : (c, v) ∈ decTable) (h' : (d, v) ∈ decTable) : c = d := by
  have : ∀ p ∈ decTable, ∀ q ∈ decTable, p.2 = q.2 → p.1 = q.1 := by decide
  exact this _ h _ h' rfl

theorem digits_zero {l : List Char} {n : Nat} (h : Digits decTable 10 l n) (h0 : n = 0) : l.head? = some '0' := by
  induction h with
  | one hc =>
    subst h0
    rw [dec_char hc (show ('0', 0) ∈ decTable by decide)]
    rfl
  | more hl _ ih =>
    have := ih (by omega)
    obtain ⟨c, r, v, rfl, -⟩ := digits_head hl
    simpa using this

theorem digits_inv {table : List (Char × Nat)} {b : Nat} {l : List Char} {n : Nat} (h : Digits table b l n) :
    (∃ c, l = [c] ∧ (c, n) ∈ table) ∨
      ∃ l0 m c v, l = l0 ++ [c] ∧ n = m * b + v ∧ Digits table b l0 m ∧ (c, v) ∈ table := by
  cases h with
  | one hc => exact .inl ⟨_, rfl, hc⟩
  | more hl hc => exact .inr ⟨_, _, _, _, rfl, rfl, hl, hc⟩

theorem digits_text {l : List Char} {n : Nat} (h : Digits decTable 10 l n) : ∀ {l' : List Char},
    Digits decTable 10 l' n → (l.head? = some '0' → l = ['0']) → (l'.head? = some '0' → l' = ['0']) → l = l' := by
  have hz : ∀ {l0 : List Char} {n0 : Nat} {c : Char}, Digits decTable 10 l0 n0 →
      ((l0 ++ [c]).head? = some '0' → l0 ++ [c] = ['0']) → n0 ≠ 0 ∧ l0.head? ≠ some '0' := by
    intro l0 n0 c h0 hh
    have : l0.head? ≠ some '0' := by
      intro h1
      obtain ⟨d, r, v, rfl, -⟩ := digits_head h0
      have := hh (by simpa using h1)
      simp at this
    exact ⟨fun e => this (digits_zero h0 e), this⟩
  induction h with
  | one hc =>
    intro l' h' _ hh'
    have hv := dec_value hc
    rcases digits_inv h' with ⟨d, rfl, hd⟩ | ⟨l0, m, d, w, rfl, e, hl, hd⟩
    · rw [dec_char hc hd]
    · have := (hz hl hh').1
      omega
  | @more l0 m c v hl hc ih =>
    intro l' h' hh hh'
    have hv := dec_value hc
    obtain ⟨h0, h1⟩ := hz hl hh
    rcases digits_inv h' with ⟨d, rfl, hd⟩ | ⟨l0', m', d, w, rfl, e, hl', hd⟩
    · have := dec_value hd
      omega
    · have hw := dec_value hd
      obtain ⟨h0', h1'⟩ := hz hl' hh'
      obtain rfl : m = m' := by omega
      obtain rfl : v = w := by omega
      rw [ih hl' (fun h => absurd h h1) (fun h => absurd h h1'), dec_char hc hd]

theorem decimal_text {l : List Char} {n : Nat} (h : Decimal l n) : l = decimal n :=
  digits_text h.1 (decimal_spec n).1 h.2 (decimal_spec n).2

theorem decimal_number {l : List Char} {n : Nat} (h : Decimal l n) : CNumber l n := by
  by_cases h0 : l.head? = some '0'
  · have hl := h.2 h0
    subst hl
    right
    left
    have : n = 0 := writes_unique decTable_unique h.1 (.one (show ('0', 0) ∈ decTable by decide))
    subst this
    exact ⟨.one (by decide), rfl⟩
  · exact .inl ⟨h.1, h0⟩

theorem quad_dotted {l : List Char} {a : Nat} (h : Quad l a) : Dotted l a := by
  obtain ⟨p, q, r, s, n, m, k, j, hp, hq, hr, hs, hn, hm, hk, hj, rfl, rfl⟩ := h
  exact .inr (.inr (.inr ⟨p, q, r, s, n, m, k, j, decimal_number hp, decimal_number hq, decimal_number hr, decimal_number hs,
    hn, hm, hk, hj, rfl, rfl⟩))

theorem quad_chars {l : List Char} {a : Nat} (h : Quad l a) : Char.ofNat 0 ∉ l := by
  obtain ⟨p, q, r, s, n, m, k, j, hp, hq, hr, hs, -, -, -, -, rfl, -⟩ := h
  have hd : ∀ {p : List Char} {n : Nat}, Decimal p n → Char.ofNat 0 ∉ p := fun h hc =>
    absurd (writes_mem h.1 _ hc) (by decide)
  simp only [List.mem_append, List.mem_cons, not_or]
  refine ⟨⟨⟨hd hp, by decide, hd hq⟩, by decide, hd hr⟩, by decide, hd hs⟩

theorem quad_lt {l : List Char} {a : Nat} (h : Quad l a) : a < 2 ^ 32 := by
  obtain ⟨p, q, r, s, n, m, k, j, -, -, -, -, hn, hm, hk, hj, -, rfl⟩ := h
  omega

theorem ntoa_quad {l : List Char} {a : Nat} (h : Quad l a) : inetNtoa a = l := by
  obtain ⟨p, q, r, s, n, m, k, j, hp, hq, hr, hs, hn, hm, hk, hj, rfl, rfl⟩ := h
  unfold inetNtoa
  rw [decimal_text hp, decimal_text hq, decimal_text hr, decimal_text hs]
  congr <;> omega

/-! ## C80 -/

/-- C80: every address written as four decimal octets without leading zeros is read as these octets, and printing the
address gives the same text. -/
theorem c80_quad {l : List Char} {a : Nat} (h : Quad l a) :
    inetAton l = .ok (BitVec.ofNat 32 a) ∧ inetNtoa a = l ∧ a < 2 ^ 32 :=
  ⟨(inetAton_iff _ _).2 ⟨quad_chars h, l, [], a, by simp, quad_dotted h, fun c hc => by simp at hc, rfl⟩, ntoa_quad h,
    quad_lt h⟩

/-- C80: every address is printed as four decimal octets without leading zeros, and reading that text gives the address. -/
theorem c80_print (x : BitVec 32) : Quad (inetNtoa x.toNat) x.toNat ∧ inetAton (inetNtoa x.toNat) = .ok x := by
  have h : Quad (inetNtoa x.toNat) x.toNat := by
    refine ⟨_, _, _, _, _, _, _, _, decimal_spec (x.toNat / 2 ^ 24 % 256), decimal_spec (x.toNat / 2 ^ 16 % 256),
      decimal_spec (x.toNat / 2 ^ 8 % 256), decimal_spec (x.toNat % 256), by omega, by omega, by omega, by omega, rfl, ?_⟩
    have := x.isLt
    omega
  refine ⟨h, ?_⟩
  rw [(c80_quad h).1]
  simp

/-- C80: exactly which texts are accepted, and as which address: at most four numbers written as in C, separated by dots,
the last one filling up the address, possibly followed by white space and anything. Everything else raises `OSError`, a NUL
character `ValueError`. -/
theorem c80_texts (l : List Char) :
    (∀ x, inetAton l = .ok x ↔ Char.ofNat 0 ∉ l ∧
      ∃ l' tail a, l = l' ++ tail ∧ Dotted l' a ∧ Trailer tail ∧ x = BitVec.ofNat 32 a) ∧
    ∀ e, inetAton l = .error e → e = .osError ∨ e = .valueError ∧ Char.ofNat 0 ∈ l := by
  refine ⟨inetAton_iff l, ?_⟩
  intro e h
  unfold inetAton at h
  by_cases h0 : Char.ofNat 0 ∈ l
  · rw [if_pos h0] at h
    cases h
    exact .inr ⟨rfl, h0⟩
  · rw [if_neg h0] at h
    left
    split at h
    · cases h
    · split at h
      · cases h
      · cases h
        rfl
    · cases h
      rfl

theorem hpaiText_create {l : List Char} {a : Nat} (h : Quad l a) (port : Int) (rest : Msg) :
    hpaiText (hpaiCreate (BitVec.ofNat 32 a) port ++ rest) = .ok (l, (port % 65536).toNat, rest) := by
  unfold hpaiText
  rw [hpai_create]
  simp only
  rw [BitVec.toNat_ofNat, Nat.mod_eq_of_lt (quad_lt h), ntoa_quad h]

/-- C80: a connect request between endpoints written as four decimal octets carries these octets, and the endpoint parser
recovers texts and ports (modulo 2^16). -/
theorem c80_connect {ctl data : List Char} {a b : Nat} (hc : Quad ctl a) (hd : Quad data b) (ctlPort dataPort : Int)
    (s : State) :
    ∃ f rest, (connectReqText ctl ctlPort data dataPort s).1 = .ok f ∧
      f = [0x06, 0x10, 0x02, 0x05, 0x00, 0x1A] ++ endpoint (BitVec.ofNat 32 a) ctlPort ++
        endpoint (BitVec.ofNat 32 b) dataPort ++ [0x04, 0x04, 0x02, 0x00] ∧
      hpaiText (f.drop 6) = .ok (ctl, (ctlPort % 65536).toNat, rest) ∧
      hpaiText rest = .ok (data, (dataPort % 65536).toNat, [0x04, 0x04, 0x02, 0x00]) := by
  obtain ⟨f, rest, h1, -, h2, -⟩ := c45_connect (BitVec.ofNat 32 a) (BitVec.ofNat 32 b) ctlPort dataPort s
  refine ⟨f, hpaiCreate (BitVec.ofNat 32 b) dataPort ++ [0x04, 0x04, 0x02, 0x00], ?_, h2, ?_, hpaiText_create hd _ _⟩
  · unfold connectReqText
    simp only [Py.bind, Py.lift, (c80_quad hc).1, (c80_quad hd).1]
    exact h1
  · rw [h2, ← hpaiCreate_eq, ← hpaiCreate_eq, List.append_assoc, List.append_assoc]
    exact hpaiText_create hc _ _

/-- C80: the same for the other requests; the channel requests need a channel. -/
theorem c80_requests {l : List Char} {a : Nat} (h : Quad l a) (port : Int) {s : State} {c : Nat} (hc : s.chan = some c) :
    (searchReqText l port s).1 =
        .ok ([0x06, 0x10, 0x02, 0x01, 0x00, 0x0E] ++ endpoint (BitVec.ofNat 32 a) port) ∧
      (connectionstateReqText l port s).1 =
        .ok ([0x06, 0x10, 0x02, 0x07, 0x00, 0x10, BitVec.ofNat 8 c, 0x00] ++ endpoint (BitVec.ofNat 32 a) port) ∧
      (disconnectReqText l port s).1 =
        .ok ([0x06, 0x10, 0x02, 0x09, 0x00, 0x10, BitVec.ofNat 8 c, 0x00] ++ endpoint (BitVec.ofNat 32 a) port) ∧
      hpaiText (endpoint (BitVec.ofNat 32 a) port) = .ok (l, (port % 65536).toNat, []) := by
  obtain ⟨f, g, h1, h2, -, -, h3, h4, -⟩ := c45_channel (BitVec.ofNat 32 a) port hc
  obtain ⟨f', h5, -, h6, -⟩ := c45_search (BitVec.ofNat 32 a) port s
  refine ⟨?_, ?_, ?_, ?_⟩
  · unfold searchReqText
    simp only [Py.bind, Py.lift, (c80_quad h).1]
    rw [h5, h6]
  · unfold connectionstateReqText
    simp only [Py.bind, Py.lift, (c80_quad h).1]
    rw [h1, h3]
  · unfold disconnectReqText
    simp only [Py.bind, Py.lift, (c80_quad h).1]
    rw [h2, h4]
  · have := hpaiText_create h port []
    rwa [List.append_nil, hpaiCreate_eq] at this

/-- A request whose address text is refused raises before anything is encoded. -/
theorem c80_refused {l : List Char} {e : Err} (h : inetAton l = .error e) (port dataPort : Int) (data : List Char) (s : State) :
    connectReqText l port data dataPort s = (.error e, s) ∧ searchReqText l port s = (.error e, s) ∧
      connectionstateReqText l port s = (.error e, s) ∧ disconnectReqText l port s = (.error e, s) := by
  refine ⟨?_, ?_, ?_, ?_⟩
  · unfold connectReqText
    simp only [Py.bind, Py.lift, h]
  · unfold searchReqText
    simp only [Py.bind, Py.lift, h]
  · unfold connectionstateReqText
    simp only [Py.bind, Py.lift, h]
  · unfold disconnectReqText
    simp only [Py.bind, Py.lift, h]

/-- Digits below 8 mean less as octal than as decimal number. -/
theorem octal_less {l : List Char} {j : Nat} (h : Digits octTable 8 l j) :
    ∃ d, Digits decTable 10 l d ∧ j ≤ d ∧ (1 < l.length → l.head? ≠ some '0' → j < d) ∧ (l.head? ≠ some '0' → 0 < j) := by
  have hz : ∀ {c v}, (c, v) ∈ octTable → c ≠ '0' → 0 < v := by
    intro c v h
    have : ∀ p ∈ octTable, p.1 ≠ '0' → 0 < p.2 := by decide
    exact this _ h
  have hd : ∀ {c v}, (c, v) ∈ octTable → (c, v) ∈ decTable := by
    intro c v h
    have : ∀ p ∈ octTable, p ∈ decTable := by decide
    exact this _ h
  induction h with
  | one hc => exact ⟨_, .one (hd hc), le_refl _, fun h => absurd h (by simp), fun h => hz hc (by simpa using h)⟩
  | @more l0 m c v hl hc ih =>
    obtain ⟨d, h1, h2, h3, h4⟩ := ih
    obtain ⟨x, r, w, rfl, -⟩ := digits_head hl
    refine ⟨_, .more h1 (hd hc), by omega, ?_, ?_⟩
    · intro _ h0
      have := h4 (by simpa using h0)
      omega
    · intro h0
      have := h4 (by simpa using h0)
      omega

/-- C80 is false for numbers with a leading zero: whatever the first three octets, a last number of at least two digits
below 8 is taken as octal number when a zero stands before it, and so means a smaller octet than the one written. -/
theorem c80_zero_refuted {p q r s : List Char} {n m k d : Nat} (hp : Decimal p n) (hq : Decimal q m) (hr : Decimal r k)
    (hn : n < 256) (hm : m < 256) (hk : k < 256) (hs : ∀ c ∈ s, c ∈ octTable.map Prod.fst) (hs' : 1 < s.length)
    (hd : Decimal s d) (h256 : d < 256) :
    ∃ j, j < d ∧ inetAton (p ++ '.' :: q ++ '.' :: r ++ '.' :: '0' :: s) =
      .ok (BitVec.ofNat 32 (2 ^ 24 * n + 2 ^ 16 * m + 2 ^ 8 * k + j)) := by
  have ho : ∀ {l : List Char} {e : Nat}, Digits decTable 10 l e → (∀ c ∈ l, c ∈ octTable.map Prod.fst) →
      ∃ j, Digits octTable 8 l j ∧ Digits octTable 8 ('0' :: l) j := by
    intro l e h
    induction h with
    | @one c v hc =>
      intro ha
      obtain ⟨⟨c', w⟩, hw, rfl⟩ := List.mem_map.1 (ha c (by simp))
      refine ⟨w, .one hw, ?_⟩
      have := Digits.more (b := 8) (.one (show ('0', 0) ∈ octTable by decide)) hw
      simpa using this
    | @more l m c v _ hc ih =>
      intro ha
      obtain ⟨j, h1, h2⟩ := ih (fun c hc => ha c (by simp [hc]))
      obtain ⟨⟨c', w⟩, hw, rfl⟩ := List.mem_map.1 (ha c (by simp))
      exact ⟨j * 8 + w, .more h1 hw, by rw [← List.cons_append]; exact .more h2 hw⟩
  obtain ⟨j, h1, h2⟩ := ho hd.1 hs
  have h0 : s.head? ≠ some '0' := by
    intro e
    rw [hd.2 e] at hs'
    simp at hs'
  obtain ⟨d', hd', -, hlt, -⟩ := octal_less h1
  have : d' = d := writes_unique decTable_unique hd' hd.1
  subst this
  have hj := hlt hs' h0
  refine ⟨j, hj, (inetAton_iff _ _).2 ⟨?_, _, [], _, by rw [List.append_nil], .inr (.inr (.inr ⟨p, q, r, '0' :: s, n, m, k, j,
    decimal_number hp, decimal_number hq, decimal_number hr, .inr (.inl ⟨h2, rfl⟩), hn, hm, hk, by omega, rfl, rfl⟩)),
    fun c hc => by simp at hc, rfl⟩⟩
  have hx : ∀ {p : List Char} {n : Nat}, Decimal p n → Char.ofNat 0 ∉ p := fun h hc =>
    absurd (writes_mem h.1 _ hc) (by decide)
  simp only [List.mem_append, List.mem_cons, not_or]
  exact ⟨⟨⟨hx hp, by decide, hx hq⟩, by decide, hx hr⟩, by decide, by decide, hx hd⟩

/-- C80 is false for texts that are not four numbers: two decimal numbers are accepted, the second filling three octets, -/
theorem c80_short_refuted {p q : List Char} {n m : Nat} (hp : Decimal p n) (hq : Decimal q m) (hn : n < 256)
    (hm : m < 2 ^ 24) : inetAton (p ++ '.' :: q) = .ok (BitVec.ofNat 32 (2 ^ 24 * n + m)) ∧ ¬ ∃ a, Quad (p ++ '.' :: q) a := by
  have hx : ∀ {p : List Char} {n : Nat}, Decimal p n → ∀ c ∈ p, c ∈ decTable.map Prod.fst := fun h c hc =>
    writes_mem h.1 _ hc
  have hcount : ∀ {p : List Char} {n : Nat}, Decimal p n → p.count '.' = 0 := fun h =>
    List.count_eq_zero.2 fun hc => absurd (hx h _ hc) (by decide)
  constructor
  · refine (inetAton_iff _ _).2 ⟨?_, _, [], _, by rw [List.append_nil], .inr (.inl ⟨p, q, n, m, decimal_number hp,
      decimal_number hq, hn, hm, rfl, rfl⟩), fun c hc => by simp at hc, rfl⟩
    simp only [List.mem_append, List.mem_cons, not_or]
    exact ⟨fun h => absurd (hx hp _ h) (by decide), by decide, fun h => absurd (hx hq _ h) (by decide)⟩
  · rintro ⟨a, p', q', r', s', n', m', k', j', hp', hq', hr', hs', -, -, -, -, e, -⟩
    have := congrArg (List.count '.') e
    simp only [List.count_append, List.count_cons_self, hcount hp, hcount hq, hcount hp', hcount hq', hcount hr',
      hcount hs'] at this
    omega

/-- and anything may follow a blank. -/
theorem c80_trailing_refuted {l tail : List Char} {a : Nat} (h : Quad l a) (ht : Char.ofNat 0 ∉ tail) :
    inetAton (l ++ ' ' :: tail) = .ok (BitVec.ofNat 32 a) := by
  refine (inetAton_iff _ _).2 ⟨?_, l, ' ' :: tail, a, rfl, quad_dotted h, ?_, rfl⟩
  · simp only [List.mem_append, List.mem_cons, not_or]
    exact ⟨quad_chars h, by decide, ht⟩
  · intro c hc
    simp at hc
    subst hc
    decide

/-- C80 is false for host names, which the socket to be bound accepts: a text that no digit begins raises `OSError` when the
client is connected; nothing is sent, so the client waits for ever. -/
theorem c80_host_refuted {l : List Char} (h0 : Char.ofNat 0 ∉ l) (h : ∀ c ∈ l.head?, c ∉ decTable.map Prod.fst)
    (c : Client) :
    Client.connectionMadeText l c = (.error .osError, { c with transport := true }) := by
  have he : inetAton l = .error .osError := by
    rcases hi : inetAton l with e | x
    · rcases (c80_texts l).2 e hi with rfl | ⟨-, h1⟩
      · rfl
      · exact absurd h1 h0
    · exfalso
      obtain ⟨-, l', tail, a, rfl, hd, -⟩ := (inetAton_iff _ _).1 hi
      have hn : ∀ {p : List Char} {n : Nat}, CNumber p n → ∃ c r, p = c :: r ∧ c ∈ decTable.map Prod.fst := by
        intro p n hp
        rcases hp with ⟨hd, -⟩ | ⟨hd, h0⟩ | ⟨x, r, rfl, -, -⟩
        · obtain ⟨c, r, v, rfl, hc⟩ := digits_head hd
          exact ⟨c, r, rfl, List.mem_map_of_mem (f := Prod.fst) hc⟩
        · obtain ⟨c, r, v, rfl, -⟩ := digits_head hd
          have : c = '0' := by simpa using h0
          subst this
          exact ⟨'0', r, rfl, by decide⟩
        · exact ⟨'0', x :: r, rfl, by decide⟩
      rcases hd with ⟨p, n, hp, -, rfl, -⟩ | ⟨p, q, n, m, hp, -, -, -, rfl, -⟩ | ⟨p, q, r, n, m, k, hp, -, -, -, -, -, rfl, -⟩ |
        ⟨p, q, r, s, n, m, k, j, hp, -, -, -, -, -, -, -, rfl, -⟩ <;>
      · obtain ⟨d, w, rfl, hd⟩ := hn hp
        exact h d (by simp) hd
  unfold Client.connectionMadeText
  simp only [Py.bind, Py.modify, Client.onState]
  rw [(c80_refused he c.localPort c.localPort l _).1]

/-! Examples: 192.168.1.010 is 192.168.1.8, 10.1 is 10.0.0.1. -/

example := c80_quad (c80_print 0xC0A80001#32).1
example : inetNtoa 0xC0A80001 = "192.168.0.1".toList := by decide +kernel
example := (c80_texts "0x7f.1 eth0".toList).1 0x7F000001#32
example : inetAton "0x7f.1 eth0".toList = .ok 0x7F000001#32 := by decide +kernel
example : inetAton "192.168.1.08".toList = .error .osError := by decide +kernel
example := c80_connect (c80_print 0x7F000001#32).1 (c80_print 0xC0A80001#32).1 1234 1234 discoveryState
example := c80_requests (c80_print 0x7F000001#32).1 1234 (s := { discoveryState with chan := some 7 }) rfl
example := c80_refused (l := "gateway".toList) (e := .osError) (by decide +kernel) 3671 3671 [] discoveryState
example := c80_zero_refuted (decimal_spec 192) (decimal_spec 168) (decimal_spec 1) (by decide +kernel) (by decide +kernel) (by decide +kernel)
  (s := decimal 10) (by decide +kernel) (by decide +kernel) (decimal_spec 10) (by decide +kernel)
example : inetAton "192.168.1.010".toList = .ok 0xC0A80108#32 := by decide +kernel
example := c80_short_refuted (decimal_spec 10) (decimal_spec 1) (by decide +kernel) (by decide +kernel)
example := c80_trailing_refuted (tail := "or so".toList) (c80_print 0x7F000001#32).1 (by decide +kernel)
example := c80_host_refuted (l := "localhost".toList) (by decide +kernel) (by decide +kernel) (Client.init 0 5544 discoveryState)

end Knx
