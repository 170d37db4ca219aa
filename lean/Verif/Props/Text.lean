import Verif.Lemmas.Text

/-! # C01, C02, C03: hexadecimal text and consuming messages -/

namespace Knx
open Spec

/-! ## C01 Hex text round trip -/

/-- C01: rendering and parsing back gives the same octets, for every message. -/
theorem c01_render_parse (m : Msg) : stringToOctets (msgRepr m) = .ok m :=
  stringToOctets_flatMap hexDigit (fun _ h => hexDigit_spec h) m

example : stringToOctets (msgRepr [0x29, 0xA0, 0x0F]) = .ok [0x29, 0xA0, 0x0F] := c01_render_parse _
example : msgRepr [0x29, 0xA0, 0x0F] = "29A00F".toList := by decide

/-- C01, lower case variant used on the sockets: text written with lower-case digits is parsed back as well. -/
theorem c01_lower_parse (m : Msg) : stringToOctets (hexLower m) = .ok m :=
  stringToOctets_flatMap hexDigitLower (fun _ h => hexDigitLower_spec h) m

example : hexLower [0x29, 0xA0, 0x0F] = "29a00f".toList := by decide

/-- C01: any even-length text of hex digits of either case is parsed, and rendering the result gives the same text in
upper case. -/
theorem c01_parse_render (s : List Char) (hs : ∀ c ∈ s, IsHex c) (heven : s.length % 2 = 0) :
    ∃ m, stringToOctets s = .ok m ∧ msgRepr m = s.map Char.toUpper := by
  match s with
  | [] => exact ⟨[], rfl, rfl⟩
  | [c] => simp at heven
  | c :: d :: s =>
    obtain ⟨h, hc⟩ := hs c (by simp)
    obtain ⟨l, hd⟩ := hs d (by simp)
    obtain ⟨m, hm, hr⟩ := c01_parse_render s (fun x hx => hs x (by simp [hx])) (by simp at heven; omega)
    refine ⟨byte (16 * h + l) :: m, ?_, ?_⟩
    · rw [stringToOctets_cons (.inl hc) (.inl hd), hm]
    · have h1 := hexDigit_value hc
      have h2 := hexDigit_value hd
      have e : (byte (16 * h + l)).toNat = 16 * h + l := by rw [byte_toNat]; omega
      have e1 : (16 * h + l) / 16 = h := by omega
      have e2 : (16 * h + l) % 16 = l := by omega
      simp only [msgRepr, List.flatMap_cons, e, e1, e2, List.map_cons] at hr ⊢
      rw [hr, hexDigit_upper hc, hexDigit_upper hd]
      rfl

example : ∃ m, stringToOctets "13fA".toList = .ok m ∧ msgRepr m = "13FA".toList :=
  c01_parse_render _ (by decide) (by decide)

/-! ## C02 Hex parser acceptance -/

/-- C02: the parser fails exactly when some character is not a digit for python, and then with `ValueError`. -/
theorem c02_error_iff (s : List Char) (e : Err) :
    stringToOctets s = .error e ↔ e = .valueError ∧ ∃ c ∈ s, ¬ IsPyDigit c := by
  constructor
  · exact stringToOctets_error
  · rintro ⟨rfl, c, hc, hx⟩
    cases h : stringToOctets s with
    | error e => rw [(stringToOctets_error h).1]
    | ok m => exact absurd (stringToOctets_ok_digits h c hc) hx

example : stringToOctets "0g".toList = .error .valueError :=
  (c02_error_iff _ _).2 ⟨rfl, 'g', by decide, by rw [← intVal_none_iff]; decide⟩

/-- C02: otherwise it yields `⌊n/2⌋` octets, octet `k` being built from the characters `2k` and `2k+1`. -/
theorem c02_octets (s : List Char) (m : Msg) (h : stringToOctets s = .ok m) :
    m.length = s.length / 2 ∧
    ∀ k b, m[k]? = some b → ∃ c d vh vl, s[2 * k]? = some c ∧ s[2 * k + 1]? = some d ∧
      PyDigit c vh ∧ PyDigit d vl ∧ b.toNat = 16 * vh + vl := by
  match s with
  | [] =>
    simp only [stringToOctets_nil, Except.ok.injEq] at h
    subst h
    simp
  | [c] =>
    obtain ⟨v, hv⟩ := stringToOctets_ok_digits h c (by simp)
    rw [stringToOctets_single hv] at h
    simp only [Except.ok.injEq] at h
    subst h
    simp
  | c :: d :: s =>
    obtain ⟨vh, hc⟩ := stringToOctets_ok_digits h c (by simp)
    obtain ⟨vl, hd⟩ := stringToOctets_ok_digits h d (by simp)
    rw [stringToOctets_cons hc hd] at h
    cases hs : stringToOctets s with
    | error e => rw [hs] at h; simp at h
    | ok m' =>
      rw [hs] at h
      simp only [Except.ok.injEq] at h
      subst h
      obtain ⟨ih1, ih2⟩ := c02_octets s m' hs
      refine ⟨by simp only [List.length_cons, ih1]; omega, ?_⟩
      intro k b hk
      cases k with
      | zero =>
        simp only [List.getElem?_cons_zero, Option.some.injEq] at hk
        have h1 := pyDigit_value hc
        have h2 := pyDigit_value hd
        exact ⟨c, d, vh, vl, rfl, rfl, hc, hd, by rw [← hk, byte_toNat]; omega⟩
      | succ k =>
        obtain ⟨c', d', a, b', e1, e2, e3⟩ := ih2 k b (by simpa using hk)
        exact ⟨c', d', a, b', by simpa [Nat.mul_add] using e1,
          by rw [show 2 * (k + 1) + 1 = (2 * k + 1) + 2 by ring]; simpa using e2, e3⟩

example : stringToOctets "a1B".toList = .ok [0xA1] := by decide

/-- C02 as stated is false of every decimal digit of another script: such a character is no hex digit, and is accepted at
every place. -/
theorem c02_refuted {c : Char} {v : Nat} (h : ForeignDigit c v) : ¬ IsHex c ∧ ∀ s t : List Char,
    (∀ x ∈ s ++ t, IsHex x) → ∃ m, stringToOctets (s ++ c :: t) = .ok m := by
  refine ⟨?_, fun s t hst => ?_⟩
  · rintro ⟨w, hw⟩
    have := hexDigit_ascii hw
    have := foreign_high h
    omega
  · cases hm : stringToOctets (s ++ c :: t) with
    | ok m => exact ⟨m, rfl⟩
    | error e =>
      obtain ⟨-, x, hx, hn⟩ := (c02_error_iff _ e).1 hm
      refine absurd ?_ hn
      rcases List.mem_append.1 hx with hx | hx
      · exact isHex_py (hst x (by simp [hx]))
      · rcases List.mem_cons.1 hx with rfl | hx
        · exact ⟨v, .inr h⟩
        · exact isHex_py (hst x (by simp [hx]))

/-- Arabic and full-width digits. -/
example : stringToOctets "٤F１2".toList = .ok [0x4F, 0x12] := by decide +kernel
example : ∃ m, stringToOctets ("0".toList ++ '٤' :: "F2".toList) = .ok m :=
  (c02_refuted (v := 4) ⟨by decide, 0x660, by decide, by decide⟩).2 _ _ (by decide)

/-- C02 for ASCII text: there the digits are the hex digits. -/
theorem c02_ascii_partial (s : List Char) (hs : ∀ c ∈ s, c.toNat < 128) (e : Err) :
    stringToOctets s = .error e ↔ e = .valueError ∧ ∃ c ∈ s, ¬ IsHex c := by
  rw [c02_error_iff]
  refine and_congr_right fun _ => exists_congr fun c => and_congr_right fun hc => not_congr ⟨?_, isHex_py⟩
  rintro ⟨v, h | h⟩
  · exact ⟨v, h⟩
  · have := foreign_high h
    have := hs c hc
    omega

example : stringToOctets "0g".toList = .error .valueError :=
  (c02_ascii_partial _ (by decide) _).2 ⟨rfl, 'g', by decide, by decide⟩

/-! ## C03 Consuming a message loses nothing -/

theorem shortOf_eq (a b : Byte) : shortOf a b = a.toNat * 256 + b.toNat := by
  have ha := a.isLt
  have hb := b.isLt
  unfold shortOf
  simp only [setField_eq, trunc_of_lt (w := 8) ha, trunc_of_lt (w := 8) hb]
  omega

theorem longOf_eq (a b c d : Byte) :
    longOf a b c d = ((a.toNat * 256 + b.toNat) * 256 + c.toNat) * 256 + d.toNat := by
  have ha := a.isLt
  have hb := b.isLt
  have hc := c.isLt
  have hd := d.isLt
  unfold longOf
  simp only [setField_eq, trunc_of_lt (w := 8) ha, trunc_of_lt (w := 8) hb, trunc_of_lt (w := 8) hc,
    trunc_of_lt (w := 8) hd]
  omega

/-- C03: `octect()` returns the first octet and the rest. -/
theorem c03_octect (m : Msg) (b : Byte) (rest : Msg) : octect m = .ok (b, rest) ↔ m = b :: rest := by
  cases m with
  | nil => simp [octect]
  | cons x m => simp [octect]

/-- C03: `short()` returns the big-endian value of the first two octets and the rest. -/
theorem c03_short (m : Msg) (v : Nat) (rest : Msg) :
    short m = .ok (v, rest) ↔ ∃ pre, m = pre ++ rest ∧ pre.length = 2 ∧ v = bigEndian pre := by
  constructor
  · intro h
    match m, h with
    | a :: b :: m, h =>
      simp only [short, Except.ok.injEq, Prod.mk.injEq] at h
      refine ⟨[a, b], by simp [h.2], rfl, ?_⟩
      rw [← h.1, shortOf_eq]
      simp [bigEndian]
  · rintro ⟨pre, rfl, hl, rfl⟩
    match pre, hl with
    | [a, b], _ => simp [short, shortOf_eq, bigEndian]

/-- C03: `long()` returns the big-endian value of the first four octets and the rest. -/
theorem c03_long (m : Msg) (v : Nat) (rest : Msg) :
    long m = .ok (v, rest) ↔ ∃ pre, m = pre ++ rest ∧ pre.length = 4 ∧ v = bigEndian pre := by
  have key : ∀ a b c d : Byte, longOf a b c d = bigEndian [a, b, c, d] := by
    intro a b c d
    rw [longOf_eq]
    simp [bigEndian]
    ring
  constructor
  · intro h
    match m, h with
    | a :: b :: c :: d :: m, h =>
      simp only [long, Except.ok.injEq, Prod.mk.injEq] at h
      exact ⟨[a, b, c, d], by simp [h.2], rfl, by rw [← h.1, key]⟩
  · rintro ⟨pre, rfl, hl, rfl⟩
    match pre, hl with
    | [a, b, c, d], _ => simp [long, key]

/-- C03: re-emitting the value in front of the remainder restores the message. -/
theorem c03_short_restore (m : Msg) (v : Nat) (rest : Msg) (h : short m = .ok (v, rest)) :
    shortOctets v ++ rest = m := by
  match m, h with
  | a :: b :: m, h =>
    simp only [short, Except.ok.injEq, Prod.mk.injEq] at h
    obtain ⟨rfl, rfl⟩ := h
    have ha := a.isLt
    have hb := b.isLt
    rw [shortOf_eq]
    unfold shortOctets
    rw [trunc_of_lt (by omega)]
    have e1 : getField 8 8 (a.toNat * 256 + b.toNat) = a.toNat := by unfold getField; omega
    have e2 : getField 0 8 (a.toNat * 256 + b.toNat) = b.toNat := by unfold getField; omega
    rw [e1, e2, byte_toNat_self, byte_toNat_self]
    rfl

/-- C03: re-emitting the value in front of the remainder restores the message. -/
theorem c03_long_restore (m : Msg) (v : Nat) (rest : Msg) (h : long m = .ok (v, rest)) :
    longOctets v ++ rest = m := by
  match m, h with
  | a :: b :: c :: d :: m, h =>
    simp only [long, Except.ok.injEq, Prod.mk.injEq] at h
    obtain ⟨rfl, rfl⟩ := h
    have ha := a.isLt
    have hb := b.isLt
    have hc := c.isLt
    have hd := d.isLt
    rw [longOf_eq]
    unfold longOctets
    rw [trunc_of_lt (by omega)]
    generalize hv : ((a.toNat * 256 + b.toNat) * 256 + c.toNat) * 256 + d.toNat = v
    have e1 : getField 24 8 v = a.toNat := by unfold getField; omega
    have e2 : getField 16 8 v = b.toNat := by unfold getField; omega
    have e3 : getField 8 8 v = c.toNat := by unfold getField; omega
    have e4 : getField 0 8 v = d.toNat := by unfold getField; omega
    rw [e1, e2, e3, e4, byte_toNat_self, byte_toNat_self, byte_toNat_self, byte_toNat_self]
    rfl

/-- C03: conversely, the octets of an integer are read back as the integer modulo 2^16. -/
theorem c03_short_emit (n : Int) (rest : Msg) : short (shortOctets n ++ rest) = .ok ((n % 65536).toNat, rest) := by
  have h := trunc_lt 16 n
  have h' : trunc 16 n = (n % 65536).toNat := rfl
  simp only [shortOctets, List.cons_append, List.nil_append, short, shortOf_eq, byte_toNat, ← h']
  unfold getField
  congr 2
  omega

/-- C03: conversely, the octets of an integer are read back as the integer modulo 2^32. -/
theorem c03_long_emit (n : Int) (rest : Msg) :
    long (longOctets n ++ rest) = .ok ((n % 4294967296).toNat, rest) := by
  have h := trunc_lt 32 n
  have h' : trunc 32 n = (n % 4294967296).toNat := rfl
  simp only [longOctets, List.cons_append, List.nil_append, long, longOf_eq, byte_toNat, ← h']
  unfold getField
  congr 2
  omega

/-- C03: `IndexError` is raised exactly when too few octets are present. -/
theorem c03_errors (m : Msg) (e : Err) :
    (octect m = .error e ↔ e = .indexError ∧ m.length < 1) ∧
    (short m = .error e ↔ e = .indexError ∧ m.length < 2) ∧
    (long m = .error e ↔ e = .indexError ∧ m.length < 4) := by
  match m with
  | [] => simp [octect, short, long, eq_comm]
  | [a] => simp [octect, short, long, eq_comm]
  | [a, b] => simp [octect, short, long, eq_comm]
  | [a, b, c] => simp [octect, short, long, eq_comm]
  | a :: b :: c :: d :: m => simp [octect, short, long]

example : short [0x12, 0x34, 0x56] = .ok (0x1234, [0x56]) :=
  (c03_short _ _ _).2 ⟨[0x12, 0x34], rfl, rfl, by decide⟩
example : long [0x12, 0x34, 0x56, 0x78, 0x9A] = .ok (0x12345678, [0x9A]) :=
  (c03_long _ _ _).2 ⟨[0x12, 0x34, 0x56, 0x78], rfl, rfl, by decide⟩
example : shortOctets ((0x1234 : Nat) : Int) ++ [0x56] = [0x12, 0x34, 0x56] :=
  c03_short_restore _ _ _ (by decide)
example : longOctets ((0x12345678 : Nat) : Int) ++ [0x9A] = [0x12, 0x34, 0x56, 0x78, 0x9A] :=
  c03_long_restore _ _ _ (by decide)
example : short (shortOctets (-1)) = .ok (0xFFFF, []) := c03_short_emit (-1) []
example : short [0x01] = .error .indexError := ((c03_errors _ _).2.1).2 ⟨rfl, by decide⟩

end Knx
