import Verif.Lemmas.Float
import Verif.Lemmas.Bits
import Verif.Spec.Dpt

/-! # Lemmas about the KNX 2-octet float -/

namespace Knx

theorem getField_split (off w1 w2 v : Nat) :
    getField (off + w1) w2 v * 2 ^ w1 + getField off w1 v = getField off (w1 + w2) v := by
  unfold getField
  rw [pow_add, ← Nat.div_div_eq_div_mul, pow_add, Nat.mod_mul, Nat.mul_comm, Nat.add_comm]

theorem getMantissa_eq (raw : Nat) : getMantissa raw = raw % 2 ^ 11 := by
  have := getField_split 0 8 3 raw
  unfold getMantissa
  rw [show (8 : Nat) = 0 + 8 from rfl] 
  rw [show (0 + 8 : Nat) = 0 + 8 from rfl, this]
  simp [getField]

theorem getField_setMantissa_low (m raw : Nat) : getMantissa (setMantissa m raw) = m % 2 ^ 11 := by
  unfold getMantissa setMantissa
  rw [getField_setField_disjoint (by omega), getField_setField_same, getField_setField_same, trunc_ofNat, trunc_ofNat]
  omega

theorem getField_setMantissa_high {off w : Nat} (h : 11 ≤ off) (m raw : Nat) :
    getField off w (setMantissa m raw) = getField off w raw := by
  unfold setMantissa
  rw [getField_setField_disjoint (by omega), getField_setField_disjoint (by omega)]

/-- The rounded product of the double `0.01` and a mantissa. -/
def prod (m : Nat) : ℚ := roundBin 53 (-1074) (c001 * m)

theorem c001_pos : (0 : ℚ) < c001 := by unfold c001; norm_num

theorem c001_bounds : (1 / 100 : ℚ) ≤ c001 ∧ c001 ≤ 1 / 100 + 1 / 10 ^ 18 := by unfold c001; norm_num

theorem prod_nonneg (m : Nat) : 0 ≤ prod m := roundBin_nonneg (mul_nonneg (le_of_lt c001_pos) (by positivity))

theorem prod_zero : prod 0 = 0 := by unfold prod; simp [roundBin_zero]

theorem log_c001_mul {m : Nat} (h : 1 ≤ m) : -7 ≤ Int.log 2 |c001 * (m : ℚ)| := by
  apply le_log_of_le
  have hm : (1 : ℚ) ≤ m := by exact_mod_cast h
  rw [abs_of_nonneg (mul_nonneg (le_of_lt c001_pos) (by positivity))]
  have := c001_bounds.1
  have h2 : ((2 : ℚ) ^ (-7 : Int)) = 1 / 128 := by norm_num
  rw [h2]
  nlinarith

theorem prod_err (m : Nat) : |prod m - c001 * m| ≤ c001 * m / 2 ^ 53 := by
  rcases Nat.eq_zero_or_pos m with h | h
  · subst h
    rw [prod_zero]
    simp
  · have := roundBin_relerr (p := 53) (emin := -1074) (q := c001 * m) (by have := log_c001_mul h; push_cast; omega)
    rwa [abs_of_nonneg (mul_nonneg (le_of_lt c001_pos) (by positivity : (0 : ℚ) ≤ m))] at this

theorem prod_pos {m : Nat} (h : 1 ≤ m) : 0 < prod m := by
  have h1 := prod_err m
  rw [abs_le] at h1
  have hm : (1 : ℚ) ≤ m := by exact_mod_cast h
  have hc := c001_bounds.1
  have : c001 * m / 2 ^ 53 ≤ c001 * m / 2 := by
    apply div_le_div_of_nonneg_left (by nlinarith) (by norm_num)
    norm_num
  nlinarith

theorem prod_mul_pow (m k : Nat) : prod (m * 2 ^ k) = prod m * 2 ^ k := by
  rcases Nat.eq_zero_or_pos m with h | h
  · subst h
    simp [prod_zero]
  · have hl := log_c001_mul h
    have := roundBin_mul_pow (p := 53) (emin := -1074) (c001 * m) k (by push_cast; omega) (by push_cast; omega)
    unfold prod
    rw [zpow_natCast] at this
    rw [← this]
    congr 1
    push_cast
    ring

theorem prod_le {m : Nat} (h : m ≤ 2048) : prod m ≤ 21 := by
  have h1 := prod_err m
  rw [abs_le] at h1
  have hm : (m : ℚ) ≤ 2048 := by exact_mod_cast h
  have hm0 : (0 : ℚ) ≤ m := by positivity
  have hc := c001_bounds
  have h3 : c001 * m ≤ 2049 / 100 := by nlinarith
  have h4 : c001 * m / 2 ^ 53 ≤ 1 / 100 := by
    rw [div_le_iff₀ (by positivity)]
    have : (1 : ℚ) / 100 * 2 ^ 53 = 9007199254740992 / 100 := by norm_num
    rw [this]
    linarith
  linarith

theorem fl64_prod {m : Nat} (h : m ≤ 2048) : fl64 (c001 * m) = .fin (prod m) := by
  apply fl64_fin
  · show |prod m| < _
    rw [abs_of_nonneg (prod_nonneg m)]
    refine lt_of_le_of_lt (prod_le h) ?_
    exact lt_of_lt_of_le (by norm_num : (21 : ℚ) < 2 ^ 5) (pow_le_pow_right₀ (by norm_num) (by norm_num))
  · exact Or.inl (mul_nonneg (le_of_lt c001_pos) (by positivity))

/-- Scaling a product by a power of two is exact. -/
theorem fl64_prod_scaled {m e : Nat} (hm : m ≤ 2048) (he : e ≤ 15) (neg : Bool) (hneg : neg = true → 1 ≤ m) :
    fl64 ((if neg then -prod m else prod m) * 2 ^ e) = .fin ((if neg then -prod m else prod m) * 2 ^ e) := by
  have hs : roundBin 53 (-1074) (prod m * 2 ^ e) = prod m * 2 ^ e := roundBin_scaled (by norm_num) _ _
  have hs' : roundBin 53 (-1074) ((if neg then -prod m else prod m) * 2 ^ e) =
      (if neg then -prod m else prod m) * 2 ^ e := by
    cases neg
    · exact hs
    · simp only [if_true, neg_mul]
      rw [roundBin_neg, hs]
  have habs : |(if neg then -prod m else prod m) * 2 ^ e| = prod m * 2 ^ e := by
    cases neg
    · simp [abs_mul, abs_of_nonneg (prod_nonneg m)]
    · simp [abs_mul, abs_of_nonneg (prod_nonneg m)]
  have hle : prod m * 2 ^ e < (2 : ℚ) ^ (1024 : ℕ) := by
    have h1 := prod_le hm
    have h2 : (2 : ℚ) ^ e ≤ 2 ^ 15 := pow_le_pow_right₀ (by norm_num) he
    have h3 : prod m * 2 ^ e ≤ 21 * 2 ^ 15 := by
      apply mul_le_mul h1 h2 (by positivity) (by norm_num)
    refine lt_of_le_of_lt h3 ?_
    exact lt_of_lt_of_le (by norm_num : (21 * 2 ^ 15 : ℚ) < 2 ^ 20) (pow_le_pow_right₀ (by norm_num) (by norm_num))
  rw [fl64_fin, hs']
  · rw [hs', habs]
    exact hle
  · cases neg with
    | false => left; exact mul_nonneg (prod_nonneg m) (by positivity)
    | true =>
      right
      rw [hs']
      have := prod_pos (hneg rfl)
      have h2 : (0 : ℚ) < 2 ^ e := by positivity
      simp only [if_true, ne_eq, mul_eq_zero, neg_eq_zero, not_or]
      exact ⟨ne_of_gt this, ne_of_gt h2⟩

/-- The magnitude of the mantissa. -/
def mag16 (raw : Nat) : Nat := (Spec.mantissa16 raw).natAbs

/-- The sign bit. -/
def neg16 (raw : Nat) : Bool := raw / 2 ^ 15 % 2 == 1

theorem mag16_le (raw : Nat) : mag16 raw ≤ 2048 := by
  unfold mag16 Spec.mantissa16
  split_ifs <;> omega

theorem mag16_pos {raw : Nat} (h : neg16 raw = true) : 1 ≤ mag16 raw := by
  unfold neg16 at h
  unfold mag16 Spec.mantissa16
  simp only [beq_iff_eq] at h
  rw [if_pos h]
  omega

theorem decode16_eq (raw : Nat) :
    decode16 raw = .fin ((if neg16 raw then -prod (mag16 raw) else prod (mag16 raw)) * 2 ^ Spec.exponent16 raw) := by
  have hsign : getField 15 1 raw = raw / 2 ^ 15 % 2 := rfl
  have hexp : getField 11 4 raw = Spec.exponent16 raw := rfl
  have hE : Spec.exponent16 raw ≤ 15 := by unfold Spec.exponent16; omega
  have hm : (if getField 15 1 raw = 0 then getMantissa raw else twosComp (getMantissa raw)) = mag16 raw := by
    rw [hsign, getMantissa_eq]
    unfold mag16 Spec.mantissa16 twosComp
    split_ifs <;> omega
  have hn : neg16 raw = !(decide (getField 15 1 raw = 0)) := by
    rw [hsign]
    unfold neg16
    have : raw / 2 ^ 15 % 2 = 0 ∨ raw / 2 ^ 15 % 2 = 1 := by omega
    rcases this with h | h <;> rw [h] <;> rfl
  have hif : ∀ p : ℚ, (if getField 15 1 raw = 0 then p else -p) = if neg16 raw then -p else p := by
    intro p
    rw [hn]
    by_cases h : getField 15 1 raw = 0 <;> simp [h]
  have := fl64_prod_scaled (mag16_le raw) hE (neg16 raw) mag16_pos
  rw [← this]
  unfold decode16
  simp only [hm, fl64_prod (mag16_le raw), hif, hexp]

/-! ## encoding -/

theorem normalise_spec (n e : Nat) :
    ∃ k, normalise n e = (n / 2 ^ k, e + k) ∧ n / 2 ^ k ≤ 2047 ∧ (k = 0 ∨ 2047 < n / 2 ^ (k - 1)) := by
  induction n using Nat.strong_induction_on generalizing e with
  | _ n ih =>
    unfold normalise
    by_cases h : 2047 < n
    · rw [if_pos h]
      obtain ⟨k, h1, h2, h3⟩ := ih (n / 2) (by omega) (e + 1)
      refine ⟨k + 1, ?_, ?_, Or.inr ?_⟩
      · rw [h1, Nat.div_div_eq_div_mul, pow_succ, Nat.mul_comm]
        congr 1
        omega
      · rw [pow_succ, Nat.mul_comm, ← Nat.div_div_eq_div_mul]
        exact h2
      · rw [Nat.add_sub_cancel]
        rcases h3 with rfl | h3
        · simpa using h
        · rcases Nat.eq_zero_or_pos k with rfl | hk
          · simpa using h
          · obtain ⟨j, rfl⟩ := Nat.exists_eq_add_of_lt hk
            simp only [Nat.zero_add, Nat.add_sub_cancel] at h3 ⊢
            rw [pow_succ, Nat.mul_comm, ← Nat.div_div_eq_div_mul]
            exact h3
    · rw [if_neg h]
      exact ⟨0, by simp, by simpa using h, Or.inl rfl⟩

/-- The exponent fits exactly for mantissas below 2^26, and a mantissa that is not zero stays so. -/
theorem normalise_bound {n k : Nat} (h2 : n / 2 ^ k ≤ 2047) (h3 : k = 0 ∨ 2047 < n / 2 ^ (k - 1)) :
    (k ≤ 15 ↔ n < 2 ^ 26) ∧ (1 ≤ n → 1 ≤ n / 2 ^ k) ∧ n / 2 ^ k * 2 ^ k ≤ n ∧ n < n / 2 ^ k * 2 ^ k + 2 ^ k := by
  have hpos := Nat.two_pow_pos k
  refine ⟨⟨fun hk => ?_, fun hn => ?_⟩, ?_, Nat.div_mul_le_self _ _, Nat.lt_div_mul_add hpos⟩
  · have h4 := Nat.lt_div_mul_add (a := n) hpos
    have h5 : 2 ^ k ≤ 2 ^ 15 := Nat.pow_le_pow_right (by norm_num) hk
    have h6 : n / 2 ^ k * 2 ^ k ≤ 2047 * 2 ^ 15 := Nat.mul_le_mul h2 h5
    omega
  · by_contra hc
    rcases h3 with h3 | h3
    · omega
    · have h5 : 2 ^ 15 ≤ 2 ^ (k - 1) := Nat.pow_le_pow_right (by norm_num) (by omega)
      have h6 : n / 2 ^ (k - 1) ≤ n / 2 ^ 15 := Nat.div_le_div_left h5 (by norm_num)
      omega
  · intro hn
    rcases h3 with rfl | h3
    · simpa using hn
    · rcases Nat.eq_zero_or_pos k with rfl | hk
      · simpa using hn
      · obtain ⟨j, rfl⟩ := Nat.exists_eq_add_of_lt hk
        simp only [Nat.zero_add, Nat.add_sub_cancel] at h3 ⊢
        rw [pow_succ, ← Nat.div_div_eq_div_mul]
        omega

/-- What the stored bits are. -/
theorem store16_fields {neg : Bool} {m e : Nat} (hm : m ≤ 2047) (he : e ≤ 15) (raw : Nat) :
    neg16 (store16 neg m e raw) = neg ∧ Spec.exponent16 (store16 neg m e raw) = e ∧
    mag16 (store16 neg m e raw) = (if neg ∧ m = 0 then 2048 else m) ∧
    (raw < 2 ^ 16 → store16 neg m e raw < 2 ^ 16) := by
  have hs : getField 15 1 (store16 neg m e raw) = if neg then 1 else 0 := by
    unfold store16
    simp only
    rw [getField_setField_same]
    cases neg <;> decide
  have hexp : getField 11 4 (store16 neg m e raw) = e := by
    unfold store16
    simp only
    rw [getField_setField_disjoint (by omega), getField_setMantissa_high (by omega), getField_setField_same,
      trunc_of_lt (by omega)]
  have hman : getMantissa (store16 neg m e raw) = (if neg then 2 ^ 11 - m else m) % 2 ^ 11 := by
    unfold store16
    simp only
    rw [show ∀ x v, getMantissa (setField 15 1 x v) = getMantissa v from ?_, getField_setMantissa_low]
    intro x v
    unfold getMantissa
    rw [getField_setField_disjoint (by omega), getField_setField_disjoint (by omega)]
  have hs' : store16 neg m e raw / 2 ^ 15 % 2 = if neg then 1 else 0 := hs
  rw [getMantissa_eq] at hman
  refine ⟨?_, hexp, ?_, ?_⟩
  · unfold neg16
    rw [hs']
    cases neg <;> rfl
  · unfold mag16 Spec.mantissa16
    rw [hs', hman]
    cases neg with
    | false => simp; omega
    | true =>
      simp only [if_true, true_and]
      split_ifs with h0
      · subst h0; rfl
      · omega
  · intro hraw
    unfold store16 setMantissa
    exact setField_lt (by omega) (setField_lt (by omega) (setField_lt (by omega) (setField_lt (by omega) hraw _) _) _) _

/-- Decoding what was stored. -/
theorem decode16_store {neg : Bool} {m e : Nat} (hm : m ≤ 2047) (he : e ≤ 15) (hneg : neg = true → 1 ≤ m) (raw : Nat) :
    decode16 (store16 neg m e raw) = .fin ((if neg then -prod m else prod m) * 2 ^ e) := by
  obtain ⟨h1, h2, h3, -⟩ := store16_fields (neg := neg) hm he raw
  have h4 : ¬ (neg = true ∧ m = 0) := by
    rintro ⟨h, h0⟩
    have := hneg h
    omega
  rw [if_neg h4] at h3
  rw [decode16_eq, h1, h2, h3]

/-- The scaled mantissa computed by `encode`. -/
def scaled16 (q : ℚ) : ℚ := roundBin 53 (-1074) (q / c001)

theorem roundBin_err_sum (p : Nat) (emin : Int) (q : ℚ) :
    |roundBin p emin q - q| ≤ |q| / 2 ^ p + (2 : ℚ) ^ emin := by
  have hp : (0 : ℚ) ≤ |q| / 2 ^ p := div_nonneg (abs_nonneg _) (by positivity)
  have hm := le_of_lt (two_zpow_pos emin)
  by_cases h : emin ≤ Int.log 2 |q| + 1 - p
  · have := roundBin_relerr h
    linarith
  · push Not at h
    have he : ulpExp p emin q = emin := max_eq_right (le_of_lt h)
    have := roundBin_err p emin q
    rw [he] at this
    linarith

theorem scaled16_err (q : ℚ) : |scaled16 q - q / c001| ≤ |q / c001| / 2 ^ 53 + 1 / 10 ^ 100 := by
  have := roundBin_err_sum 53 (-1074) (q / c001)
  refine le_trans this ?_
  have h : ((2 : ℚ) ^ (-1074 : Int)) ≤ 1 / 10 ^ 100 := by
    have h1 : ((2 : ℚ) ^ (-1074 : Int)) ≤ (2 : ℚ) ^ (-400 : Int) := zpow_le_zpow_right₀ (by norm_num) (by norm_num)
    have h2 : ((2 : ℚ) ^ (-400 : Int)) = 1 / 2 ^ 400 := by
      rw [zpow_neg, one_div]
      norm_cast
    rw [h2] at h1
    refine le_trans h1 ?_
    apply one_div_le_one_div_of_le (by positivity)
    have : (10 : ℚ) ^ 100 ≤ (2 ^ 4) ^ 100 := pow_le_pow_left₀ (by norm_num) (by norm_num) _
    rw [← pow_mul] at this
    exact this
  linarith

theorem scaled16_neg (q : ℚ) : scaled16 (-q) = -scaled16 q := by
  unfold scaled16
  rw [neg_div, roundBin_neg]

/-- The mantissa before normalisation for a number of moderate size. -/
theorem roundMantissa_div {q : ℚ} (h : |scaled16 q| ≤ 10 ^ 20) :
    ∃ m0 : Nat, roundMantissa (divC001 (.fin q)) = .ok m0 ∧ m0 = (rhe (100 * |scaled16 q|)).toNat / 100 := by
  have hfin : divC001 (.fin q) = .fin (scaled16 q) ∨ (divC001 (.fin q) = .negZero ∧ scaled16 q = 0) := by
    unfold divC001 fl64
    simp only
    have : ¬ ((2 : ℚ) ^ (1024 : ℕ) ≤ |roundBin 53 (-1074) (q / c001)|) := by
      have hb : (10 : ℚ) ^ 20 < (2 : ℚ) ^ (1024 : ℕ) :=
        lt_of_lt_of_le (by norm_num : (10 : ℚ) ^ 20 < 2 ^ 100) (pow_le_pow_right₀ (by norm_num) (by norm_num))
      unfold scaled16 at h
      exact not_le.2 (lt_of_le_of_lt h hb)
    rw [if_neg this]
    by_cases hz : roundBin 53 (-1074) (q / c001) = 0 ∧ q / c001 < 0
    · rw [if_pos hz]
      exact Or.inr ⟨rfl, hz.1⟩
    · rw [if_neg hz]
      exact Or.inl rfl
  rcases hfin with hf | ⟨hf, h0⟩
  · have habs : (rhe (100 * scaled16 q)).natAbs = (rhe (100 * |scaled16 q|)).toNat := by
      have := rhe_natAbs (100 * scaled16 q)
      rw [abs_mul, abs_of_pos (by norm_num : (0 : ℚ) < 100)] at this
      omega
    refine ⟨(rhe (100 * scaled16 q)).natAbs / 100, ?_, by rw [habs]⟩
    rw [hf]
    unfold roundMantissa
    simp only
    rw [if_neg]
    have h1 := rhe_err (100 * |scaled16 q|)
    rw [abs_le] at h1
    have h2 : ((rhe (100 * |scaled16 q|) : Int) : ℚ) < (10 ^ 28 : ℤ) := by
      push_cast
      norm_num at h ⊢
      linarith
    have h3 : rhe (100 * |scaled16 q|) < 10 ^ 28 := by exact_mod_cast h2
    rw [habs]
    omega
  · refine ⟨0, by rw [hf]; rfl, ?_⟩
    rw [h0]
    have : rhe (100 * |(0 : ℚ)|) = 0 := by simpa using rhe_int 0
    rw [this]
    rfl

theorem encode16_eq {v : PyFloat} {m0 : Nat} (h : roundMantissa (divC001 v) = .ok m0) (raw : Nat) :
    ∃ k, m0 / 2 ^ k ≤ 2047 ∧ (k = 0 ∨ 2047 < m0 / 2 ^ (k - 1)) ∧
      encode16Float v raw = if k ≤ 15 then (.ok (), store16 v.signNeg (m0 / 2 ^ k) k raw) else (.error .exception, raw) := by
  obtain ⟨k, h1, h2, h3⟩ := normalise_spec m0 0
  refine ⟨k, h2, h3, ?_⟩
  unfold encode16Float
  simp only [Py.bind, Py.lift, h, h1, Nat.zero_add]
  by_cases hk : k ≤ 15
  · rw [if_pos hk, if_neg (by omega)]
    rfl
  · rw [if_neg hk, if_pos (by omega)]
    rfl

end Knx
