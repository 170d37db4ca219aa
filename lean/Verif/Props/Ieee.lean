import Verif.Lemmas.Ieee
import Verif.Props.Float16
import Verif.Props.Order

/-! # C18, C21, C22, C92: the floats are those of IEEE 754 -/

namespace Knx
open Spec

theorem hundredth_nearest : Nearest 53 (-1074) (1 / 100) c001 := by
  rw [roundBin_iff (by norm_num)]
  have hl : Int.log 2 |(1 / 100 : ℚ)| = -7 := by
    have h0 : (0 : ℚ) < |(1 / 100 : ℚ)| := by norm_num
    refine le_antisymm ?_ (le_log_of_le ?_)
    · have h1 := zpow_log_le (q := 1 / 100) (by norm_num)
      by_contra hc
      have h2 : (2 : ℚ) ^ (-6 : Int) ≤ (2 : ℚ) ^ Int.log 2 |(1 / 100 : ℚ)| := zpow_le_zpow_right₀ (by norm_num) (by omega)
      have h3 := le_trans h2 h1
      rw [abs_of_pos (by norm_num)] at h3
      norm_num at h3
    · rw [abs_of_pos (by norm_num)]
      norm_num
  unfold roundBin
  rw [if_neg (by norm_num), hl]
  simp only
  have he : max (-7 + 1 - ((53 : Nat) : Int)) (-1074) = -59 := by norm_num
  rw [he]
  have hf : ⌊(1 / 100 : ℚ) / (2 : ℚ) ^ (-59 : Int)⌋ = 5764607523034234 := by
    rw [Int.floor_eq_iff]
    norm_num
  have hr : rhe ((1 / 100 : ℚ) / (2 : ℚ) ^ (-59 : Int)) = 5764607523034235 := by
    unfold rhe
    rw [hf]
    norm_num
  rw [hr]
  unfold c001
  norm_num

/-- C18: a raw value with 12 bit two's complement mantissa `M` and exponent `E` decodes to a finite double: the double
nearest to `M` times the double nearest to 0.01, scaled by `2^E` exactly, which is within a relative error of 2^-52 of
`0.01 * M * 2^E`. -/
theorem c18_decode (d : Dpt) (h : Spec.isFloat16 d.cls = true) :
    ∃ c p x : ℚ, Nearest 53 (-1074) (1 / 100) c ∧ Nearest 53 (-1074) (c * (Spec.mantissa16 d.raw : ℚ)) p ∧
      d.decode = .ok (.fin x) ∧ x = p * 2 ^ Spec.exponent16 d.raw ∧
      |x - (Spec.mantissa16 d.raw : ℚ) / 100 * 2 ^ Spec.exponent16 d.raw| ≤
        |(Spec.mantissa16 d.raw : ℚ) / 100 * 2 ^ Spec.exponent16 d.raw| / 2 ^ 52 := by
  obtain ⟨x, h1, h2, h3⟩ := decode16_double d h
  exact ⟨c001, _, x, hundredth_nearest, roundBin_nearest (by norm_num) _ _, h1, h3, h2⟩

/-- C21: encoding raises exactly if the double quotient of the number and the double 0.01, rounded half even to hundredths, has a
magnitude of 2^26 or more, that is if it does not fit the mantissa under the largest exponent. -/
theorem c21_exact (d : Dpt) (h : Spec.isFloat16 d.cls = true) {q c y : ℚ} (hc : Nearest 53 (-1074) (1 / 100) c)
    (hy : Nearest 53 (-1074) (q / c) y) :
    (∃ e, Dpt.encode (.float (.fin q)) d = (.error e, d)) ↔ 67108863995 / 1000 ≤ |y| := by
  have h1 : c = c001 := nearest_unique (by norm_num) hc hundredth_nearest
  rw [encode16_refuses d h q, (roundBin_iff (by norm_num)).1 hy, h1]

/-- C22: a number whose nearest binary32 number (24 digits, none below 2^-149) is in the range of binary32 is stored as this
number, which decoding gives back; zero keeps the sign of the number. -/
theorem c22_nearest (d : Dpt) (h : Spec.isFloat32 d.cls = true) {q y : ℚ} (hy : Nearest 24 (-149) q y)
    (hr : |y| < (2 : ℚ) ^ (128 : ℕ)) :
    ∃ r, Dpt.encode (.float (.fin q)) d = (.ok (), r) ∧ r.Wf ∧ r.cls = d.cls ∧
      r.decode = .ok (if y = 0 ∧ q < 0 then .negZero else .fin y) := by
  obtain rfl := (roundBin_iff (by norm_num)).1 hy
  obtain ⟨r, f, h1, h2, h3, h4, h5⟩ := encode32_nearest d h q hr
  exact ⟨r, h1, h2, h3, by rw [h4, h5]⟩

/-- C22: a number overflows exactly from half a unit above the greatest binary32 number on; it is then stored as an
infinity of its sign, and encoding does not raise. -/
theorem c22_overflow (d : Dpt) (h : Spec.isFloat32 d.cls = true) {q y : ℚ} (hy : Nearest 24 (-149) q y) :
    ∃ r, Dpt.encode (.float (.fin q)) d = (.ok (), r) ∧ r.cls = d.cls ∧
      (Spec.overflow32 ≤ |q| → r.decode = .ok (.inf (decide (q < 0)))) ∧
      (|q| < Spec.overflow32 → r.decode = .ok (if y = 0 ∧ q < 0 then .negZero else .fin y)) := by
  obtain rfl := (roundBin_iff (by norm_num)).1 hy
  exact encode32_overflow d h q

/-- C92, C84, C79: the doubles that the claims speak of are those of IEEE 754: the nearest number with 53 digits, none
below 2^-1074, ties to even; an infinity from half a unit above the largest double on; a negative number that vanishes is
the negative zero. The constant is the double nearest to 0.01. -/
theorem c92_double (q : ℚ) :
    (∀ x, fl64 q = .fin x ↔ Nearest 53 (-1074) q x ∧ |q| < 2 ^ 1024 - 2 ^ 970 ∧ ¬ (x = 0 ∧ q < 0)) ∧
    (fl64 q = .negZero ↔ Nearest 53 (-1074) q 0 ∧ q < 0) ∧
    (∀ n, fl64 q = .inf n ↔ 2 ^ 1024 - 2 ^ 970 ≤ |q| ∧ n = decide (q < 0)) ∧
    Nearest 53 (-1074) (1 / 100) c001 := by
  have hn := roundBin_nearest (p := 53) (by norm_num) (-1074) q
  have hlim := nearest_limit (p := 53) (by norm_num) (l := 1023) (by norm_num) hn
  have e1 : (2 : ℚ) ^ ((1023 : Int) + 1) = (2 : ℚ) ^ (1024 : ℕ) := by rw [← zpow_natCast]; congr 1
  have e2 : (2 : ℚ) ^ ((1023 : Int) - (53 : Nat)) = (2 : ℚ) ^ (970 : ℕ) := by rw [← zpow_natCast]; congr 1
  rw [e1, e2] at hlim
  have hiff : ∀ {x}, Nearest 53 (-1074) q x ↔ x = roundBin 53 (-1074) q := roundBin_iff (by norm_num)
  have hpos : (0 : ℚ) < (2 : ℚ) ^ (1024 : ℕ) := by positivity
  have h0 : 0 ≤ q → 0 ≤ roundBin 53 (-1074) q := roundBin_nonneg
  have h1 : q < 0 → roundBin 53 (-1074) q ≤ 0 := by
    intro h
    have h0 : 0 ≤ roundBin 53 (-1074) (-q) := roundBin_nonneg (by linarith)
    rw [roundBin_neg] at h0
    linarith
  have hc := hundredth_nearest
  unfold fl64
  simp only
  simp only [hiff (x := _)]
  generalize roundBin 53 (-1074) q = r at *
  generalize (2 : ℚ) ^ (1024 : ℕ) - (2 : ℚ) ^ (970 : ℕ) = L at *
  generalize (2 : ℚ) ^ (1024 : ℕ) = T at *
  refine ⟨fun x => ?_, ?_, fun n => ?_, hc⟩
  · by_cases hb : T ≤ |r|
    · rw [if_pos hb]
      exact ⟨fun h => (by cases h), fun h => absurd (hlim.1 hb) (not_le.2 h.2.1)⟩
    · rw [if_neg hb]
      have hb' := not_le.1 (fun h => hb (hlim.2 h))
      by_cases hz : r = 0 ∧ q < 0
      · rw [if_pos hz]
        exact ⟨fun h => (by cases h), fun h => absurd (h.1 ▸ hz) h.2.2⟩
      · rw [if_neg hz]
        constructor
        · intro h
          cases h
          exact ⟨rfl, hb', hz⟩
        · rintro ⟨rfl, -, -⟩
          rfl
  · by_cases hb : T ≤ |r|
    · rw [if_pos hb]
      refine ⟨fun h => (by cases h), fun h => ?_⟩
      rw [← h.1, abs_zero] at hb
      linarith
    · rw [if_neg hb]
      by_cases hz : r = 0 ∧ q < 0
      · rw [if_pos hz]
        exact ⟨fun _ => ⟨hz.1.symm, hz.2⟩, fun _ => rfl⟩
      · rw [if_neg hz]
        exact ⟨fun h => (by cases h), fun h => absurd ⟨h.1.symm, h.2⟩ hz⟩
  · by_cases hb : T ≤ |r|
    · rw [if_pos hb]
      have hs : r < 0 ↔ q < 0 := by
        constructor
        · intro h
          by_contra hq
          linarith [h0 (not_lt.1 hq)]
        · intro h
          rcases lt_or_eq_of_le (h1 h) with h2 | h2
          · exact h2
          · rw [h2, abs_zero] at hb
            linarith
      simp only [hs]
      constructor
      · intro h
        cases h
        exact ⟨hlim.1 hb, rfl⟩
      · rintro ⟨-, rfl⟩
        rfl
    · rw [if_neg hb]
      refine ⟨fun h => ?_, fun h => absurd (hlim.2 h.1) hb⟩
      split_ifs at h <;> cases h

example : ∃ c p x : ℚ, Nearest 53 (-1074) (1 / 100) c ∧ Nearest 53 (-1074) (c * -10) p ∧
    (⟨.valueTemp, 0x87F6⟩ : Dpt).decode = .ok (.fin x) ∧ x = p * 2 ^ 0 := by
  obtain ⟨c, p, x, h1, h2, h3, h4, -⟩ := c18_decode ⟨.valueTemp, 0x87F6⟩ rfl
  have hm : Spec.mantissa16 0x87F6 = -10 := by decide
  have he : Spec.exponent16 0x87F6 = 0 := by decide
  simp only [hm, he] at h2 h4
  exact ⟨c, p, x, h1, by exact_mod_cast h2, h3, h4⟩

example {c y : ℚ} (hc : Nearest 53 (-1074) (1 / 100) c) (hy : Nearest 53 (-1074) (-700000 / c) y) : 67108863995 / 1000 ≤ |y| :=
  (c21_exact ⟨.valueTemp, 0⟩ rfl hc hy).1
    (c21_rejects ⟨.valueTemp, 0⟩ rfl _ (Or.inr (Or.inr ⟨_, rfl, by rw [abs_of_neg] <;> norm_num⟩)))

theorem nearest_half : Nearest 24 (-149) (-1 / 2) (-1 / 2) := by
  rw [roundBin_iff (by norm_num)]
  have := roundBin_exact (p := 24) (emin := -149) (-1) (-1) (by norm_num) (by norm_num) (by norm_num)
  norm_num at this ⊢
  exact this.symm

example : ∃ r, Dpt.encode (.float (.fin (-1 / 2))) ⟨.float32, 7⟩ = (.ok (), r) ∧ r.Wf ∧ r.cls = .float32 ∧
    r.decode = .ok (.fin (-1 / 2)) := by
  obtain ⟨r, h1, h2, h3, h4⟩ := c22_nearest ⟨.float32, 7⟩ rfl nearest_half (by rw [abs_of_neg (by norm_num)]; norm_num)
  exact ⟨r, h1, h2, h3, by rw [h4, if_neg (by norm_num)]⟩

example : ∃ r, Dpt.encode (.float (.fin (-(10 ^ 39)))) ⟨.valuePower, 7⟩ = (.ok (), r) ∧ r.cls = .valuePower ∧
    r.decode = .ok (.inf true) := by
  obtain ⟨r, h1, h2, h3, -⟩ := c22_overflow ⟨.valuePower, 7⟩ rfl (roundBin_nearest (by norm_num) (-149) (-(10 ^ 39)))
  refine ⟨r, h1, h2, ?_⟩
  rw [h3 (by unfold Spec.overflow32; rw [abs_neg, abs_of_pos (by norm_num)]; norm_num)]
  norm_num

end Knx
