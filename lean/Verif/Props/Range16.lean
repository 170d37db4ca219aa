import Verif.Props.Ieee
import Verif.Spec.Range16

/-! # C107: the ranges and the invalid value of the two octet floats -/

namespace Knx
open Spec

theorem lowest16_isFloat16 {c : DptClass} {lo : ℚ} (h : lowest16 c = some lo) : isFloat16 c = true ∧ -273 ≤ lo := by
  revert h
  cases c <;> simp [lowest16, isFloat16] <;> rintro rfl <;> norm_num

/-- The fields of a number that the library encodes. -/
theorem encode16_fields (d : Dpt) (h : isFloat16 d.cls = true) {q : ℚ} (hq : |q| ≤ 6710886399 / 10 ^ 4) :
    ∃ k r, k ≤ 15 ∧ mantissa0 q / 2 ^ k ≤ 2047 ∧ Dpt.encode (.float (.fin q)) d = (.ok (), r) ∧ r.cls = d.cls ∧
      neg16 r.raw = decide (q < 0) ∧ exponent16 r.raw = k ∧
      mag16 r.raw = (if decide (q < 0) = true ∧ mantissa0 q / 2 ^ k = 0 then 2048 else mantissa0 q / 2 ^ k) ∧
      (d.raw < 2 ^ 16 → r.raw < 2 ^ 16) := by
  obtain ⟨k, k1, k2, -, k4⟩ := encode16_ok hq d.raw
  obtain ⟨f1, f2, f3, f4⟩ := store16_fields (neg := decide (q < 0)) k2 k1 d.raw
  refine ⟨k, ⟨d.cls, store16 (decide (q < 0)) (mantissa0 q / 2 ^ k) k d.raw⟩, k1, k2, ?_, rfl, f1, f2, f3, f4⟩
  unfold Dpt.encode
  rw [kind_float16.1 h]
  simp only [Py.bind, Py.lift, Dpt.toFloat, Dpt.onRaw, k4]

/-- C107: every number in the range of its type is encoded, and not as invalid data. -/
theorem c107_partial (d : Dpt) {q : ℚ} (hr : InRange16 d.cls q) :
    ∃ r, Dpt.encode (.float (.fin q)) d = (.ok (), r) ∧ r.cls = d.cls ∧ r.raw ≠ invalid16 := by
  obtain ⟨lo, h, hl, hh⟩ := hr
  obtain ⟨h1, h2⟩ := lowest16_isFloat16 h
  unfold highest16 at hh
  have ha : |q| ≤ 670760 := abs_le.2 ⟨by linarith, hh⟩
  obtain ⟨k, r, k1, k2, k3, k4, f1, f2, f3, -⟩ := encode16_fields d h1 (q := q) (le_trans ha (by norm_num))
  refine ⟨r, k3, k4, fun e => ?_⟩
  rw [e] at f1 f2 f3
  have g1 : decide (q < 0) = false := by rw [← f1]; decide
  have g2 : k = 15 := by rw [← f2]; decide
  have g3 : mag16 invalid16 = 2047 := by decide
  rw [g1, g3] at f3
  subst g2
  simp only [Bool.false_eq_true, false_and, if_false] at f3
  have hm : 67076096 ≤ mantissa0 q := by omega
  have hb := (mantissa0_bounds (q := q) (le_trans ha (by norm_num))).1
  have hm' : ((67076096 : Nat) : ℚ) ≤ (mantissa0 q : ℚ) := by exact_mod_cast hm
  push_cast at hm'
  clear f1 f2 f3 g1 g3 k2
  generalize (mantissa0 q : ℚ) = m at *
  linarith

example : ∃ r, Dpt.encode (.float (.fin (-273))) ⟨.valueTemp, 0⟩ = (.ok (), r) ∧ r.cls = .valueTemp ∧ r.raw ≠ invalid16 :=
  c107_partial ⟨.valueTemp, 0⟩ ⟨-273, rfl, by norm_num, by norm_num [highest16]⟩

/-- C107 is false: a number outside of the range of its type is encoded all the same, as long as it fits the two octets. -/
theorem c107_refuted (d : Dpt) {lo q : ℚ} (h : lowest16 d.cls = some lo) (ho : q < lo ∨ highest16 < q)
    (hq : |q| ≤ 6710886399 / 10 ^ 4) :
    ¬ InRange16 d.cls q ∧ ∃ r, Dpt.encode (.float (.fin q)) d = (.ok (), r) ∧ r.cls = d.cls := by
  obtain ⟨k, r, -, -, k3, k4, -⟩ := encode16_fields d (lowest16_isFloat16 h).1 hq
  refine ⟨?_, r, k3, k4⟩
  rintro ⟨lo', h1, h2, h3⟩
  rw [h] at h1
  cases h1
  rcases ho with ho | ho <;> linarith

example : ¬ InRange16 .valueTemp (-300) ∧
    ∃ r, Dpt.encode (.float (.fin (-300))) ⟨.valueTemp, 0⟩ = (.ok (), r) ∧ r.cls = .valueTemp :=
  c107_refuted ⟨.valueTemp, 0⟩ (lo := -273) rfl (.inl (by norm_num)) (by rw [abs_of_neg] <;> norm_num)

/-- C107 is false: the numbers at the upper end of what fits the two octets are encoded as invalid data. -/
theorem c107_marker_refuted (d : Dpt) (h : isFloat16 d.cls = true) (hw : d.Wf) {q : ℚ} (hq : 67076098 / 100 ≤ q)
    (hq' : q ≤ 6710886399 / 10 ^ 4) :
    ∃ r, Dpt.encode (.float (.fin q)) d = (.ok (), r) ∧ r.cls = d.cls ∧ r.raw = invalid16 := by
  have hp : 0 ≤ q := le_trans (by norm_num) hq
  have ha : |q| ≤ 6710886399 / 10 ^ 4 := by rwa [abs_of_nonneg hp]
  obtain ⟨k, r, k1, k2, k3, k4, f1, f2, f3, f4⟩ := encode16_fields d h ha
  refine ⟨r, k3, k4, ?_⟩
  have ho : octets d.cls = 2 := by
    revert h
    cases d.cls <;> simp [isFloat16, octets]
  unfold Dpt.Wf at hw
  rw [ho] at hw
  have f4' := f4 hw
  have hb := (mantissa0_bounds (q := q) (le_trans ha (by norm_num))).2.1
  rw [abs_of_nonneg hp, add_zero] at hb
  have hm : 67076096 ≤ mantissa0 q := by
    have : ((67076096 : Nat) : ℚ) ≤ (mantissa0 q : ℚ) := by
      push_cast
      generalize (mantissa0 q : ℚ) = m at *
      linarith
    exact_mod_cast this
  have hk : k = 15 := by
    by_contra hne
    have h1 : 2 ^ k ≤ 2 ^ 14 := Nat.pow_le_pow_right (by decide) (by omega)
    have h2 := Nat.lt_div_mul_add (a := mantissa0 q) (Nat.two_pow_pos k)
    have h3 : mantissa0 q / 2 ^ k * 2 ^ k ≤ 2047 * 2 ^ 14 := Nat.mul_le_mul k2 h1
    omega
  have hd : decide (q < 0) = false := by simpa using hp
  rw [hd] at f1 f3
  simp only [Bool.false_eq_true, false_and, if_false] at f3
  rw [hk] at f2 f3 k2
  unfold neg16 at f1
  unfold mag16 mantissa16 at f3
  unfold exponent16 at f2
  unfold invalid16
  have f1' : ¬ r.raw / 2 ^ 15 % 2 = 1 := by simpa using f1
  rw [if_neg f1'] at f3
  omega

example : ∃ r, Dpt.encode (.float (.fin 671000)) ⟨.valueLux, 0⟩ = (.ok (), r) ∧ r.cls = .valueLux ∧ r.raw = invalid16 :=
  c107_marker_refuted ⟨.valueLux, 0⟩ rfl (by unfold Dpt.Wf; decide) (by norm_num) (by norm_num)

/-- C107 is false: invalid data are decoded to a number. -/
theorem c107_invalid_refuted (d : Dpt) (h : isFloat16 d.cls = true) (hr : d.raw = invalid16) :
    ∃ x : ℚ, d.decode = .ok (.fin x) ∧ |x - 67076096 / 100| ≤ 1 / 10 ^ 9 := by
  obtain ⟨c, p, x, -, -, h1, -, h2⟩ := c18_decode d h
  refine ⟨x, h1, ?_⟩
  have e1 : mantissa16 d.raw = 2047 := by rw [hr]; decide
  have e2 : exponent16 d.raw = 15 := by rw [hr]; decide
  rw [e1, e2] at h2
  rw [abs_le] at h2 ⊢
  rw [abs_of_nonneg (by norm_num)] at h2
  norm_num at *
  constructor <;> linarith [h2.1, h2.2]

example : ∃ x : ℚ, (Dpt.mk .valueTemp 0x7FFF).decode = .ok (.fin x) ∧ |x - 67076096 / 100| ≤ 1 / 10 ^ 9 :=
  c107_invalid_refuted _ rfl rfl

end Knx
