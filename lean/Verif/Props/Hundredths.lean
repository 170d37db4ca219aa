import Verif.Props.IntEncode

/-! # C125: numbers that a 2-octet float has exactly -/

namespace Knx
open Spec

/-- The doubles for the mantissas that are quarters: all 163 of them. -/
theorem quarters_exact : ∀ j ∈ List.range 163,
    roundBin 53 (-1074) (c001 * ((25 * (j : Int) - 2025 : Int) : ℚ)) = ((25 * (j : Int) - 2025 : Int) : ℚ) / 100 := by
  decide +kernel

theorem quarter_exact {M : Int} (h1 : -2048 ≤ M) (h2 : M < 2048) (h : 25 ∣ M) : Nearest 53 (-1074) (c001 * (M : ℚ)) ((M : ℚ) / 100) := by
  obtain ⟨k, rfl⟩ := h
  have hj := quarters_exact (k + 81).toNat (List.mem_range.2 (by omega))
  rw [show (25 * (((k + 81).toNat : Nat) : Int) - 2025 : Int) = 25 * k by omega] at hj
  rw [roundBin_iff (by norm_num), hj]

/-- A raw value with a given mantissa and exponent. -/
theorem raw_of {M : Int} {E : Nat} (h1 : -2048 ≤ M) (h2 : M < 2048) (hE : E ≤ 15) :
    ∃ raw, raw < 2 ^ 16 ∧ Spec.mantissa16 raw = M ∧ Spec.exponent16 raw = E ∧ (raw = 0xF800 → M = -2048) := by
  refine ⟨(if M < 0 then 2 ^ 15 else 0) + E * 2 ^ 11 + (M % 2048).toNat, ?_, ?_, ?_, ?_⟩
  all_goals
    by_cases hM : M < 0
    · simp only [Spec.mantissa16, Spec.exponent16, hM, if_true]
      try split_ifs
      all_goals omega
    · simp only [Spec.mantissa16, Spec.exponent16, hM, if_false]
      try split_ifs
      all_goals omega

/-- C125: every int that is `M * 2^E` hundredths, for a mantissa of 12 bits and an exponent of 4, is read back as it was written. -/
theorem c125_int (d : Dpt) (h : Spec.isFloat16 d.cls = true) {n M : Int} {E : Nat} (h1 : -2048 ≤ M) (h2 : M < 2048) (hE : E ≤ 15)
    (hn : 100 * n = M * 2 ^ E) :
    ∃ r, Dpt.encode (.int n) d = (.ok (), r) ∧ r.cls = d.cls ∧ r.decode = .ok (.fin n) := by
  obtain ⟨raw, w, r1, r2, r3⟩ := raw_of h1 h2 hE
  have h25 : (25 : Int) ∣ M := by
    have ht : M * 32768 = 100 * (n * 2 ^ (15 - E)) := by
      rw [← mul_assoc, hn, mul_assoc, ← pow_add, show E + (15 - E) = 15 by omega]
      norm_num
    generalize n * 2 ^ (15 - E) = t at ht
    omega
  have hM : M ≠ -2048 := by rintro rfl; revert h25; decide
  have hcls : Spec.isFloat16 DptClass.valueTemp = true := rfl
  obtain ⟨c, p, x, hc, hp, hd, hx, -⟩ := c18_decode ⟨.valueTemp, raw⟩ hcls
  obtain rfl : c = c001 := nearest_unique (by norm_num) hc hundredth_nearest
  have r1' : Spec.mantissa16 (⟨.valueTemp, raw⟩ : Dpt).raw = M := r1
  have r2' : Spec.exponent16 (⟨.valueTemp, raw⟩ : Dpt).raw = E := r2
  rw [r1'] at hp
  obtain rfl := nearest_unique (by norm_num) hp (quarter_exact h1 h2 h25)
  have hxn : x = (n : ℚ) := by
    rw [hx, r2']
    have : (100 : ℚ) * n = M * 2 ^ E := by exact_mod_cast hn
    linarith
  rw [hxn] at hd
  obtain ⟨f, r, s1, s2, s3, s4⟩ := c19_stable ⟨.valueTemp, raw⟩ d hcls h w (fun hr => hM (r3 hr))
  rw [hd] at s1
  cases s1
  refine ⟨r, ?_, s3, s4⟩
  have hb : |n| < 2 ^ 53 := by
    have hp2 : (2 : Int) ^ E ≤ 2 ^ 15 := pow_le_pow_right₀ (by norm_num) hE
    have hp0 : (0 : Int) < 2 ^ E := by positivity
    have : |M * 2 ^ E| ≤ 2048 * 2 ^ 15 := by
      rw [abs_mul, abs_of_pos hp0]
      exact mul_le_mul (abs_le.2 ⟨h1, h2.le⟩) hp2 hp0.le (by norm_num)
    rw [← hn, abs_mul] at this
    norm_num at this
    have hnn := abs_nonneg n
    generalize |n| = N at *
    omega
  have hq : |(n : ℚ)| < 2 ^ 53 := by exact_mod_cast hb
  have hl : (2 : ℚ) ^ 53 < 2 ^ 1024 - 2 ^ 970 := by decide +kernel
  have hnear : Nearest 53 (-1074) (n : ℚ) n := by
    refine ⟨⟨n, 0, hb, by norm_num, by norm_num⟩, fun y _ => by rw [sub_self, abs_zero]; exact abs_nonneg _, ?_⟩
    rintro ⟨y, -, hne, he⟩
    rw [sub_self, abs_zero, abs_eq_zero, sub_eq_zero] at he
    exact absurd he hne
  rw [(c123_double d (.inl h) n).1 _ hnear (hq.trans hl), s2]

/-- 21 degrees, of which the type has the half. -/
example : ∃ r, Dpt.encode (.int 21) ⟨.valueTemp, 0x7FFF⟩ = (.ok (), r) ∧ r.cls = .valueTemp ∧ r.decode = .ok (.fin 21) := by
  obtain ⟨r, h1, h2, h3⟩ := c125_int ⟨.valueTemp, 0x7FFF⟩ rfl (n := 21) (M := 1050) (E := 1) (by norm_num) (by norm_num) (by norm_num) (by norm_num)
  exact ⟨r, h1, h2, by exact_mod_cast h3⟩

/-- C125: no other int is ever read: what a datapoint is read as, if it is an int, is `M * 2^E` hundredths. -/
theorem c125_int_only (d : Dpt) (h : Spec.isFloat16 d.cls = true) {n : Int} (hd : d.decode = .ok (.fin n)) :
    ∃ (M : Int) (E : Nat), -2048 ≤ M ∧ M < 2048 ∧ E ≤ 15 ∧ 100 * n = M * 2 ^ E := by
  obtain ⟨c, p, x, -, -, hx, -, he⟩ := c18_decode d h
  rw [hd] at hx
  obtain rfl : (n : ℚ) = x := by cases hx; rfl
  have hM : -2048 ≤ Spec.mantissa16 d.raw ∧ Spec.mantissa16 d.raw < 2048 := by
    unfold Spec.mantissa16
    split_ifs <;> omega
  have hE : Spec.exponent16 d.raw ≤ 15 := by unfold Spec.exponent16; omega
  refine ⟨_, _, hM.1, hM.2, hE, ?_⟩
  generalize Spec.mantissa16 d.raw = M at *
  generalize Spec.exponent16 d.raw = E at *
  have hW : |M * 2 ^ E| ≤ 2 ^ 26 := by
    have hp2 : (2 : Int) ^ E ≤ 2 ^ 15 := pow_le_pow_right₀ (by norm_num) hE
    have hp0 : (0 : Int) < 2 ^ E := by positivity
    rw [abs_mul, abs_of_pos hp0]
    calc |M| * 2 ^ E ≤ 2048 * 2 ^ 15 := mul_le_mul (abs_le.2 ⟨hM.1, hM.2.le⟩) hp2 hp0.le (by norm_num)
      _ = 2 ^ 26 := by norm_num
  rw [show (M : ℚ) / 100 * 2 ^ E = ((M * 2 ^ E : Int) : ℚ) / 100 by push_cast; ring] at he
  generalize M * 2 ^ E = W at hW he ⊢
  have hW' : |(W : ℚ)| ≤ 2 ^ 26 := by exact_mod_cast hW
  rw [abs_div, abs_le] at he
  obtain ⟨a, b⟩ := he
  norm_num only at a b hW'
  have a1 : (100 * n - W : ℚ) < 1 := by linarith
  have a2 : (-1 : ℚ) < 100 * n - W := by linarith
  have b1 : 100 * n - W < 1 := by exact_mod_cast a1
  have b2 : -1 < 100 * n - W := by exact_mod_cast a2
  omega

/-- 83 degrees is never read, though it can be written. -/
example (raw : Nat) : (⟨.valueTemp, raw⟩ : Dpt).decode ≠ .ok (.fin 83) := by
  intro hd
  obtain ⟨M, E, h1, h2, h3, h4⟩ := c125_int_only ⟨.valueTemp, raw⟩ rfl (n := 83) (by exact_mod_cast hd)
  rcases Nat.lt_or_ge E 3 with hE | hE
  · rcases (by omega : E = 0 ∨ E = 1 ∨ E = 2) with rfl | rfl | rfl <;> omega
  · obtain ⟨k, rfl⟩ := Nat.exists_eq_add_of_le hE
    rw [pow_add, ← mul_assoc, mul_right_comm] at h4
    generalize M * 2 ^ k = t at h4
    omega

/-- The mantissa before normalisation of a number close to hundredths is their count. -/
theorem mantissa0_close {q : ℚ} {V : Nat} (hV : V ≤ 2 ^ 26) (h : |100 * |q| - V| ≤ 1 / 1000) : mantissa0 q = V ∧ |q| ≤ 10 ^ 6 := by
  have hV' : (V : ℚ) ≤ 2 ^ 26 := by exact_mod_cast hV
  rw [abs_le] at h
  have hle : |q| ≤ 10 ^ 6 := by
    norm_num only at hV' h ⊢
    linarith [h.1, h.2]
  obtain ⟨h1, -⟩ := scaled16_bounds hle
  have hr : rhe (100 * |scaled16 q|) = ((100 * V : Nat) : Int) := by
    apply rhe_near
    rw [abs_le] at h1
    rw [abs_lt]
    push_cast
    norm_num at *
    constructor <;> linarith
  refine ⟨?_, hle⟩
  unfold mantissa0
  rw [hr, Int.toNat_natCast]
  exact Nat.mul_div_cancel_left _ (by norm_num)

/-- Numbers of the same sign close to the same hundredths are written alike. -/
theorem encode_close (d : Dpt) (h : Spec.isFloat16 d.cls = true) {q q' : ℚ} {V : Nat} (hV : V ≤ 2 ^ 26)
    (hq : |100 * |q| - V| ≤ 1 / 1000) (hq' : |100 * |q'| - V| ≤ 1 / 1000) (hs : q < 0 ↔ q' < 0) :
    Dpt.encode (.float (.fin q)) d = Dpt.encode (.float (.fin q')) d := by
  obtain ⟨a1, a2⟩ := mantissa0_close hV hq
  obtain ⟨b1, b2⟩ := mantissa0_close hV hq'
  obtain ⟨m, m1, m2⟩ := roundMantissa_div (q := q) (le_trans (scaled16_bounds a2).2 (by norm_num))
  obtain ⟨n, n1, n2⟩ := roundMantissa_div (q := q') (le_trans (scaled16_bounds b2).2 (by norm_num))
  have e : m = n := m2.trans (a1.trans (b1.symm.trans n2.symm))
  subst e
  have he : encode16Float (.fin q) = encode16Float (.fin q') := by
    unfold encode16Float
    rw [m1, n1, signNeg_fin, signNeg_fin, decide_eq_decide.2 hs]
  replace h := kind_float16.1 h
  unfold Dpt.encode
  rw [h]
  simp only [Py.bind, Py.lift, Dpt.toFloat, he]

/-- C125: of a number that is `M * 2^E` hundredths, or within 1/100000 of it, what is read back is the one double that the
mantissa and the exponent are read as: within one part in 2^52 of the hundredths. `M` is not 0, of which C20 tells. -/
theorem c125_stored_partial (d : Dpt) (h : Spec.isFloat16 d.cls = true) {M : Int} {E : Nat} (h1 : -2048 ≤ M) (h2 : M < 2048)
    (hM : M ≠ 0) (hE : E ≤ 15) (hne : ¬ (M = -2048 ∧ E = 15)) :
    ∃ x : ℚ, |x - (M : ℚ) * 2 ^ E / 100| ≤ |(M : ℚ) * 2 ^ E / 100| / 2 ^ 52 ∧
      ∀ q : ℚ, |q - (M : ℚ) * 2 ^ E / 100| ≤ 1 / 100000 →
        ∃ r, Dpt.encode (.float (.fin q)) d = (.ok (), r) ∧ r.cls = d.cls ∧ r.decode = .ok (.fin x) := by
  obtain ⟨raw, w, r1, r2, -⟩ := raw_of h1 h2 hE
  have hcls : Spec.isFloat16 DptClass.valueTemp = true := rfl
  obtain ⟨c, p, x, hc, hp, hd, hx, he⟩ := c18_decode ⟨.valueTemp, raw⟩ hcls
  have hF8 : raw ≠ 0xF800 := by
    rintro rfl
    apply hne
    rw [← r1, ← r2]
    decide
  obtain ⟨f, r, s1, s2, s3, s4⟩ := c19_stable ⟨.valueTemp, raw⟩ d hcls h w hF8
  rw [hd] at s1
  cases s1
  change |x - (Spec.mantissa16 raw : ℚ) / 100 * 2 ^ Spec.exponent16 raw| ≤
    |(Spec.mantissa16 raw : ℚ) / 100 * 2 ^ Spec.exponent16 raw| / 2 ^ 52 at he
  rw [r1, r2, show (M : ℚ) / 100 * 2 ^ E = (M : ℚ) * 2 ^ E / 100 by ring] at he
  refine ⟨x, he, fun q hq => ⟨r, ?_, s3, s4⟩⟩
  rw [← s2]
  -- the count of hundredths
  have hW : |M * 2 ^ E| ≤ 2 ^ 26 ∧ M * 2 ^ E ≠ 0 := by
    have hp2 : (2 : Int) ^ E ≤ 2 ^ 15 := pow_le_pow_right₀ (by norm_num) hE
    have hp0 : (0 : Int) < 2 ^ E := by positivity
    refine ⟨?_, mul_ne_zero hM hp0.ne'⟩
    rw [abs_mul, abs_of_pos hp0]
    calc |M| * 2 ^ E ≤ 2048 * 2 ^ 15 := mul_le_mul (abs_le.2 ⟨h1, h2.le⟩) hp2 hp0.le (by norm_num)
      _ = 2 ^ 26 := by norm_num
  have hWq : (M : ℚ) * 2 ^ E = ((M * 2 ^ E : Int) : ℚ) := by push_cast; rfl
  rw [hWq] at he hq
  generalize M * 2 ^ E = W at hW he hq
  obtain ⟨w1, w2⟩ := hW
  have w1' : |(W : ℚ)| ≤ 2 ^ 26 := by exact_mod_cast w1
  have hx' : |x - (W : ℚ) / 100| ≤ 1 / 100000 := by
    refine he.trans ?_
    rw [abs_div]
    norm_num at *
    linarith
  have key : ∀ y : ℚ, |y - (W : ℚ) / 100| ≤ 1 / 100000 → |100 * |y| - (W.natAbs : ℚ)| ≤ 1 / 1000 ∧ (y < 0 ↔ W < 0) := by
    intro y hy
    have hn : ((W.natAbs : Nat) : ℚ) = |(W : ℚ)| := by
      rw [Nat.cast_natAbs]; push_cast; rfl
    rw [hn]
    rw [abs_le] at hy
    rcases lt_or_gt_of_ne w2 with hw | hw
    · have hw1 : (W : ℚ) ≤ -1 := by exact_mod_cast (show W ≤ -1 by omega)
      have hy0 : y < 0 := by linarith [hy.1, hy.2]
      rw [abs_of_neg hy0, abs_of_neg (by linarith : (W : ℚ) < 0), abs_le]
      refine ⟨⟨by linarith [hy.1, hy.2], by linarith [hy.1, hy.2]⟩, iff_of_true hy0 hw⟩
    · have hw1 : (1 : ℚ) ≤ W := by exact_mod_cast (show 1 ≤ W by omega)
      have hy0 : 0 < y := by linarith [hy.1, hy.2]
      rw [abs_of_pos hy0, abs_of_pos (by linarith : (0 : ℚ) < W), abs_le]
      refine ⟨⟨by linarith [hy.1, hy.2], by linarith [hy.1, hy.2]⟩, iff_of_false (by linarith) (by omega)⟩
  obtain ⟨k1, k2⟩ := key q hq
  obtain ⟨k3, k4⟩ := key x hx'
  exact encode_close d h (V := W.natAbs) (by rw [abs_le] at w1; omega) k1 k3 (k2.trans k4.symm)

/-- 0.35 itself, and the double next to it that it is read back as, are written as 35 hundredths. -/
example : ∃ x : ℚ, |x - 35 / 100| ≤ 35 / 100 / 2 ^ 52 ∧ ∃ r, Dpt.encode (.float (.fin (35 / 100))) ⟨.valueTemp, 0x7FFF⟩ = (.ok (), r) ∧
    r.decode = .ok (.fin x) := by
  obtain ⟨x, h1, h2⟩ := c125_stored_partial ⟨.valueTemp, 0x7FFF⟩ rfl (M := 35) (E := 0) (by norm_num) (by norm_num) (by norm_num)
    (by norm_num) (by norm_num)
  obtain ⟨r, h3, -, h4⟩ := h2 (35 / 100) (by norm_num)
  refine ⟨x, ?_, r, h3, h4⟩
  have : |((35 : Int) : ℚ) * 2 ^ 0 / 100| = 35 / 100 := by norm_num
  rw [this] at h1
  norm_num at h1 ⊢
  exact h1

/-- C125 fails for other numbers: 0.35 is 35 hundredths, and it can be written, but no datapoint reads as 0.35. -/
theorem c125_refuted (d : Dpt) (h : Spec.isFloat16 d.cls = true) :
    ∃ q, Nearest 53 (-1074) (35 / 100) q ∧ (d.Wf → ∃ r, Dpt.encode (.float (.fin q)) d = (.ok (), r)) ∧
      ∀ r : Dpt, Spec.isFloat16 r.cls = true → r.decode ≠ .ok (.fin q) := by
  have hq := roundBin_nearest (p := 53) (by norm_num) (-1074) (35 / 100)
  have hb : |roundBin 53 (-1074) (35 / 100) - 35 / 100| ≤ 1 / 10 ^ 9 := by decide +kernel
  have hne : roundBin 53 (-1074) (c001 * (35 : Int)) ≠ roundBin 53 (-1074) (35 / 100) := by decide +kernel
  generalize roundBin 53 (-1074) (35 / 100) = q at *
  rw [abs_le] at hb
  refine ⟨q, hq, fun hw => ?_, fun r hr hd => ?_⟩
  · obtain ⟨r, h1, -⟩ := c21_accepts d h hw q (by rw [abs_le]; constructor <;> norm_num <;> linarith)
    exact ⟨r, h1⟩
  · obtain ⟨c, p, x, hc, hp, hx, hxp, he⟩ := c18_decode r hr
    rw [hd] at hx
    cases hx
    obtain rfl : c = c001 := nearest_unique (by norm_num) hc hundredth_nearest
    generalize Spec.mantissa16 r.raw = M at *
    generalize Spec.exponent16 r.raw = E at *
    have hv : M * 2 ^ E = 35 := by
      have e1 : |q - ((M * 2 ^ E : Int) : ℚ) / 100| ≤ |((M * 2 ^ E : Int) : ℚ) / 100| / 2 ^ 52 := by
        push_cast
        rw [show (M : ℚ) * 2 ^ E / 100 = (M : ℚ) / 100 * 2 ^ E by ring]
        exact he
      generalize M * 2 ^ E = V at e1
      have e2 : |((V : Int) : ℚ) / 100| / 2 ^ 52 ≤ |((V : Int) : ℚ) / 100| / 1000 := by
        apply div_le_div_of_nonneg_left (abs_nonneg _) <;> norm_num
      have e3 := abs_le.1 (e1.trans e2)
      rcases abs_cases (((V : Int) : ℚ) / 100) with ⟨ha, hs⟩ | ⟨ha, hs⟩ <;> rw [ha] at e3
      · have a1 : (34 : ℚ) < V := by linarith [e3.1, e3.2]
        have a2 : (V : ℚ) < 36 := by linarith [e3.1, e3.2]
        have b1 : (34 : Int) < V := by exact_mod_cast a1
        have b2 : V < (36 : Int) := by exact_mod_cast a2
        omega
      · exfalso
        linarith [e3.1, e3.2]
    have hE : E = 0 := by
      by_contra hE
      obtain ⟨k, rfl⟩ := Nat.exists_eq_succ_of_ne_zero hE
      rw [Nat.succ_eq_add_one, pow_succ, ← mul_assoc] at hv
      generalize M * 2 ^ k = t at hv
      omega
    subst hE
    rw [pow_zero, mul_one] at hv
    subst hv
    rw [pow_zero, mul_one] at hxp
    exact hne (((roundBin_iff (by norm_num)).1 hp).symm.trans hxp.symm)

example : ∃ q, Nearest 53 (-1074) (35 / 100) q ∧ ∀ raw, (⟨.valueTemp, raw⟩ : Dpt).decode ≠ .ok (.fin q) := by
  obtain ⟨q, h1, -, h2⟩ := c125_refuted ⟨.valueTemp, 0⟩ rfl
  exact ⟨q, h1, fun raw => h2 ⟨.valueTemp, raw⟩ rfl⟩

end Knx
