import Verif.Lemmas.Float16

/-! # C18 - C21: the KNX 2-octet float (DPT 9) -/

namespace Knx

theorem kind_float16 {c : DptClass} : Spec.isFloat16 c = true ↔ c.kind = .float16 := by
  cases c <;> simp [Spec.isFloat16, DptClass.kind]

/-! ## C18 decoding value -/

/-- The signed mantissa times the power of two, as a rational. -/
theorem sign_mag (raw : Nat) (x : ℚ) :
    (if neg16 raw then -x else x) = (if neg16 raw then -1 else 1) * x := by
  cases neg16 raw <;> simp

theorem mantissa_mag (raw : Nat) :
    ((Spec.mantissa16 raw : Int) : ℚ) = (if neg16 raw then -1 else 1) * (mag16 raw : ℚ) := by
  have h : Spec.mantissa16 raw = (if neg16 raw then -1 else 1) * (mag16 raw : Int) := by
    unfold mag16 neg16 Spec.mantissa16
    by_cases hs : raw / 2 ^ 15 % 2 = 1
    · rw [if_pos hs, hs]
      simp only [beq_self_eq_true, if_true]
      omega
    · have hs0 : raw / 2 ^ 15 % 2 = 0 := by omega
      rw [hs0]
      simp only [show ((0 : Nat) == 1) = false from rfl, if_false, Bool.false_eq_true, if_neg (by omega : ¬ (0 : Nat) = 1)]
      omega
  rw [h]
  cases neg16 raw <;> simp

/-- A raw value `r` with 12 bit two's complement mantissa `M` and exponent `E` decodes to a finite double within a
relative error of 2^-52 of `0.01 * M * 2^E`; the double is the correctly rounded product of the double 0.01 and
`M`, scaled exactly. -/
theorem decode16_double (d : Dpt) (h : Spec.isFloat16 d.cls = true) :
    ∃ x : ℚ, d.decode = .ok (.fin x) ∧
      |x - (Spec.mantissa16 d.raw : ℚ) / 100 * 2 ^ Spec.exponent16 d.raw| ≤
        |(Spec.mantissa16 d.raw : ℚ) / 100 * 2 ^ Spec.exponent16 d.raw| / 2 ^ 52 ∧
      x = roundBin 53 (-1074) (c001 * (Spec.mantissa16 d.raw : ℚ)) * 2 ^ Spec.exponent16 d.raw := by
  replace h := kind_float16.1 h
  refine ⟨_, by unfold Dpt.decode; rw [h]; simp only; rw [decode16_eq], ?_, ?_⟩
  · rw [sign_mag, mantissa_mag]
    set s : ℚ := if neg16 d.raw then -1 else 1
    have hs : |s| = 1 := by
      show |(if neg16 d.raw then (-1 : ℚ) else 1)| = 1
      cases neg16 d.raw <;> simp
    set m := mag16 d.raw
    set e := Spec.exponent16 d.raw
    have h2 : (0 : ℚ) < 2 ^ e := by positivity
    have hm : (0 : ℚ) ≤ m := by positivity
    have e1 : s * prod m * 2 ^ e - s * (m : ℚ) / 100 * 2 ^ e = s * ((prod m - m / 100) * 2 ^ e) := by ring
    have e2 : s * (m : ℚ) / 100 * 2 ^ e = s * (m / 100 * 2 ^ e) := by ring
    rw [e1, e2, abs_mul s, abs_mul s, hs, one_mul, one_mul, abs_mul, abs_of_pos h2,
      abs_of_nonneg (by positivity : (0 : ℚ) ≤ m / 100 * 2 ^ e)]
    have herr := prod_err m
    have hc := c001_bounds
    rw [abs_le] at herr
    have key : |prod m - (m : ℚ) / 100| ≤ (m : ℚ) / 100 / 2 ^ 52 := by
      rw [abs_le]
      have hcm : c001 * m ≤ m / 100 + m / 10 ^ 18 := by
        have := mul_le_mul_of_nonneg_right hc.2 hm
        linarith
      have hcm' : (m : ℚ) / 100 ≤ c001 * m := by
        have := mul_le_mul_of_nonneg_right hc.1 hm
        linarith
      constructor
      · have : c001 * (m : ℚ) / 2 ^ 53 ≤ (m / 100 + m / 10 ^ 18) / 2 ^ 53 :=
          div_le_div_of_nonneg_right hcm (by positivity)
        norm_num at *
        linarith
      · have : c001 * (m : ℚ) / 2 ^ 53 ≤ (m / 100 + m / 10 ^ 18) / 2 ^ 53 :=
          div_le_div_of_nonneg_right hcm (by positivity)
        have hc3 : c001 * (m : ℚ) ≤ m / 100 + m / 4800000000000000000 := by
          have : c001 ≤ 1 / 100 + 1 / 4800000000000000000 := by unfold c001; norm_num
          have := mul_le_mul_of_nonneg_right this hm
          linarith
        norm_num at *
        linarith
    calc |prod m - (m : ℚ) / 100| * 2 ^ e ≤ (m : ℚ) / 100 / 2 ^ 52 * 2 ^ e :=
          mul_le_mul_of_nonneg_right key (le_of_lt h2)
      _ = (m : ℚ) / 100 * 2 ^ e / 2 ^ 52 := by ring
  · rw [mantissa_mag]
    cases neg16 d.raw
    · simp [prod]
    · simp only [if_true]
      rw [show c001 * (-1 * (mag16 d.raw : ℚ)) = -(c001 * mag16 d.raw) by ring, roundBin_neg]
      rfl

example : ∃ x : ℚ, (⟨.valueTemp, 0x87F6⟩ : Dpt).decode = .ok (.fin x) ∧ |x - (-1 / 10)| ≤ 1 / 10 / 2 ^ 52 := by
  obtain ⟨x, h1, h2, -⟩ := decode16_double ⟨.valueTemp, 0x87F6⟩ rfl
  refine ⟨x, h1, ?_⟩
  have hm : Spec.mantissa16 0x87F6 = -10 := by decide
  have he : Spec.exponent16 0x87F6 = 0 := by decide
  simp only [hm, he] at h2
  norm_num at h2 ⊢
  exact h2

/-! ## Encoding in general -/

theorem rhe_near {x : ℚ} {n : Int} (h : |x - n| < 1 / 2) : rhe x = n := by
  have h1 := rhe_err x
  rw [abs_le] at h1
  rw [abs_lt] at h
  have a1 : ((rhe x : Int) : ℚ) < ((n + 1 : Int) : ℚ) := by push_cast; linarith
  have a2 : ((n - 1 : Int) : ℚ) < ((rhe x : Int) : ℚ) := by push_cast; linarith
  have b1 : rhe x < n + 1 := by exact_mod_cast a1
  have b2 : n - 1 < rhe x := by exact_mod_cast a2
  omega

/-- Bounds of the scaled mantissa of a number of moderate size. -/
theorem scaled16_bounds {q : ℚ} (h : |q| ≤ 10 ^ 6) :
    |(|scaled16 q| - 100 * |q|)| ≤ 1 / 10 ^ 6 ∧ |scaled16 q| ≤ 10 ^ 9 := by
  have he := scaled16_err q
  have hc := c001_bounds
  have hpos := c001_pos
  have hq := abs_nonneg q
  have e1 : |q / c001| = |q| / c001 := by rw [abs_div, abs_of_pos hpos]
  rw [e1] at he
  have u : |q| / c001 ≤ 100 * |q| := by
    rw [div_le_iff₀ hpos]
    nlinarith
  have l : 100 * |q| - 1 / 10 ^ 7 ≤ |q| / c001 := by
    rw [le_div_iff₀ hpos]
    have : (100 * |q| - 1 / 10 ^ 7) * c001 = 100 * |q| * c001 - c001 / 10 ^ 7 := by ring
    rw [this]
    have h1 : |q| * c001 ≤ |q| * (1 / 100 + 1 / 10 ^ 18) := mul_le_mul_of_nonneg_left hc.2 hq
    have h2 : (1 / 100 : ℚ) / 10 ^ 7 ≤ c001 / 10 ^ 7 := div_le_div_of_nonneg_right hc.1 (by norm_num)
    norm_num at *
    linarith
  have s : |q| / c001 / 2 ^ 53 ≤ 1 / 10 ^ 7 := by
    rw [div_le_iff₀ (by norm_num)]
    norm_num at *
    linarith
  have t := abs_sub_abs_le_abs_sub (scaled16 q) (q / c001)
  have t' := abs_sub_abs_le_abs_sub (q / c001) (scaled16 q)
  rw [abs_sub_comm] at t'
  rw [e1] at t t'
  have hsmall : (1 : ℚ) / 10 ^ 100 ≤ 1 / 10 ^ 7 := by
    apply one_div_le_one_div_of_le (by norm_num)
    exact pow_le_pow_right₀ (by norm_num) (by norm_num)
  generalize (1 : ℚ) / 10 ^ 100 = tiny at *
  constructor
  · rw [abs_le]
    norm_num at *
    constructor <;> linarith
  · norm_num at *
    linarith

theorem signNeg_fin (q : ℚ) : (PyFloat.fin q).signNeg = decide (q < 0) := rfl

/-- The mantissa before normalisation. -/
def mantissa0 (q : ℚ) : Nat := (rhe (100 * |scaled16 q|)).toNat / 100

theorem mantissa0_bounds {q : ℚ} (h : |q| ≤ 10 ^ 6) :
    (mantissa0 q : ℚ) ≤ 100 * |q| + 5001 / 10 ^ 6 ∧ 100 * |q| - 1 - 5001 / 10 ^ 6 < (mantissa0 q : ℚ) + 0 ∧
    ∀ n : Nat, (100 * n : ℚ) ≤ rhe (100 * |scaled16 q|) → n ≤ mantissa0 q := by
  obtain ⟨h1, -⟩ := scaled16_bounds h
  have h2 := rhe_err (100 * |scaled16 q|)
  have h0 : 0 ≤ rhe (100 * |scaled16 q|) := rhe_nonneg (by positivity)
  rw [abs_le] at h1 h2
  set r := rhe (100 * |scaled16 q|) with hr
  obtain ⟨k, hk⟩ := Int.eq_ofNat_of_zero_le h0
  have hm : mantissa0 q = k / 100 := by
    unfold mantissa0
    rw [← hr, hk]
    rfl
  rw [hk] at h2
  have hk' : ((k : Int) : ℚ) = (k : ℚ) := by push_cast; rfl
  rw [hk'] at h2
  have d1 : ((k / 100 : Nat) : ℚ) * 100 ≤ k := by exact_mod_cast Nat.div_mul_le_self k 100
  have d2 : (k : ℚ) < ((k / 100 : Nat) : ℚ) * 100 + 100 := by
    exact_mod_cast Nat.lt_div_mul_add (a := k) (by norm_num : 0 < 100)
  rw [hm]
  refine ⟨?_, ?_, ?_⟩
  · norm_num at *
    linarith
  · norm_num at *
    linarith
  · intro n hn
    rw [hk] at hn
    rw [hk'] at hn
    have : 100 * n ≤ k := by exact_mod_cast hn
    omega

/-! ## C19 decode then encode is stable -/

/-- The mantissa before normalisation of a decoded value is exact. -/
theorem mantissa0_decoded {m e : Nat} (hm : m ≤ 2048) (he : e ≤ 15) (neg : Bool) :
    mantissa0 ((if neg then -prod m else prod m) * 2 ^ e) = m * 2 ^ e := by
  set q := (if neg then -prod m else prod m) * 2 ^ e with hq
  have habs : |q| = prod m * 2 ^ e := by
    rw [hq]
    cases neg <;> simp [abs_mul, abs_of_nonneg (prod_nonneg m)]
  have h2 : (2 : ℚ) ^ e ≤ 2 ^ 15 := pow_le_pow_right₀ (by norm_num) he
  have hpl := prod_le hm
  have hpn := prod_nonneg m
  have hle : |q| ≤ 10 ^ 6 := by
    rw [habs]
    calc prod m * 2 ^ e ≤ 21 * 2 ^ 15 := mul_le_mul hpl h2 (by positivity) (by norm_num)
      _ ≤ 10 ^ 6 := by norm_num
  obtain ⟨h1, -⟩ := scaled16_bounds hle
  have herr := prod_err m
  have hc := c001_bounds
  have hm' : (m : ℚ) ≤ 2048 := by exact_mod_cast hm
  have hm0 : (0 : ℚ) ≤ m := by positivity
  have hclose : |100 * prod m - m| ≤ 1 / 10 ^ 10 := by
    rw [abs_le] at herr ⊢
    have hcm : c001 * m ≤ m / 100 + m / 10 ^ 18 := by
      have := mul_le_mul_of_nonneg_right hc.2 hm0
      linarith
    have hcm' : (m : ℚ) / 100 ≤ c001 * m := by
      have := mul_le_mul_of_nonneg_right hc.1 hm0
      linarith
    have : c001 * (m : ℚ) / 2 ^ 53 ≤ (m / 100 + m / 10 ^ 18) / 2 ^ 53 :=
      div_le_div_of_nonneg_right hcm (by positivity)
    norm_num at *
    constructor <;> linarith
  have hclose2 : |100 * (prod m * 2 ^ e) - m * 2 ^ e| ≤ 1 / 10 ^ 5 := by
    have e1 : 100 * (prod m * 2 ^ e) - m * 2 ^ e = (100 * prod m - m) * 2 ^ e := by ring
    rw [e1, abs_mul, abs_of_pos (by positivity : (0 : ℚ) < 2 ^ e)]
    calc |100 * prod m - m| * 2 ^ e ≤ 1 / 10 ^ 10 * 2 ^ 15 :=
          mul_le_mul hclose h2 (by positivity) (by positivity)
      _ ≤ 1 / 10 ^ 5 := by norm_num
  have hr : rhe (100 * |scaled16 q|) = ((100 * (m * 2 ^ e) : Nat) : Int) := by
    apply rhe_near
    rw [habs] at h1
    rw [abs_le] at h1 hclose2
    rw [abs_lt]
    push_cast
    norm_num at *
    constructor <;> linarith
  unfold mantissa0
  rw [hr, Int.toNat_natCast]
  exact Nat.mul_div_cancel_left _ (by norm_num)

/-- C19: every raw value but 0xF800 decodes to a number that can be encoded into any datapoint of the type, giving a
raw value that decodes to the same number. -/
theorem c19_stable (d d' : Dpt) (h : Spec.isFloat16 d.cls = true) (h' : Spec.isFloat16 d'.cls = true) (hw : d.Wf)
    (hne : d.raw ≠ 0xF800) :
    ∃ (f : PyFloat) (r : Dpt), d.decode = .ok f ∧ Dpt.encode (.float f) d' = (.ok (), r) ∧ r.cls = d'.cls ∧
      r.decode = .ok f := by
  replace h := kind_float16.1 h
  replace h' := kind_float16.1 h'
  set m := mag16 d.raw with hmdef
  set e := Spec.exponent16 d.raw with hedef
  have hm : m ≤ 2048 := mag16_le d.raw
  have he : e ≤ 15 := by rw [hedef]; unfold Spec.exponent16; omega
  set q := (if neg16 d.raw then -prod m else prod m) * 2 ^ e with hq
  have hdec : decode16 d.raw = .fin q := decode16_eq d.raw
  have habs : |q| = prod m * 2 ^ e := by
    rw [hq]
    cases neg16 d.raw <;> simp [abs_mul, abs_of_nonneg (prod_nonneg m)]
  have hle : |q| ≤ 10 ^ 6 := by
    rw [habs]
    calc prod m * 2 ^ e ≤ 21 * 2 ^ 15 :=
          mul_le_mul (prod_le hm) (pow_le_pow_right₀ (by norm_num) he) (by positivity) (by norm_num)
      _ ≤ 10 ^ 6 := by norm_num
  obtain ⟨m0, hm0, hm0'⟩ := roundMantissa_div (q := q) (le_trans (scaled16_bounds hle).2 (by norm_num))
  have hm0e : m0 = m * 2 ^ e := hm0'.trans (mantissa0_decoded hm he (neg16 d.raw))
  obtain ⟨k, k1, k2, k3⟩ := encode16_eq hm0 d'.raw
  obtain ⟨b1, b2, b3, b4⟩ := normalise_bound k1 k2
  -- it fits, since only 0xF800 has mantissa 2048 and exponent 15
  have hlt : m0 < 2 ^ 26 := by
    rw [hm0e]
    by_cases hm8 : m = 2048
    · have he14 : e ≤ 14 := by
        by_contra hc
        have : e = 15 := by omega
        apply hne
        have hraw : d.raw < 65536 := by
          have := hw
          unfold Dpt.Wf at this
          have ho : Spec.octets d.cls = 2 := by
            revert h
            cases d.cls <;> simp [DptClass.kind, Spec.octets]
          rw [ho] at this
          omega
        rw [hmdef] at hm8
        rw [hedef] at this
        unfold mag16 Spec.mantissa16 at hm8
        unfold Spec.exponent16 at this
        split_ifs at hm8 <;> omega
      have : 2 ^ e ≤ 2 ^ 14 := Nat.pow_le_pow_right (by norm_num) he14
      rw [hm8]
      omega
    · have h1 : m ≤ 2047 := by omega
      have h2 : 2 ^ e ≤ 2 ^ 15 := Nat.pow_le_pow_right (by norm_num) he
      calc m * 2 ^ e ≤ 2047 * 2 ^ 15 := Nat.mul_le_mul h1 h2
        _ < 2 ^ 26 := by norm_num
  have hk : k ≤ 15 := b1.2 hlt
  rw [if_pos hk] at k3
  have hsign : (PyFloat.fin q).signNeg = neg16 d.raw := by
    rw [signNeg_fin, hq]
    cases hn : neg16 d.raw with
    | false =>
      simp only [Bool.false_eq_true, if_false, decide_eq_false_iff_not, not_lt]
      exact mul_nonneg (prod_nonneg m) (by positivity)
    | true =>
      simp only [if_true, decide_eq_true_eq]
      have := prod_pos (mag16_pos hn)
      have h2 : (0 : ℚ) < 2 ^ e := by positivity
      nlinarith
  refine ⟨.fin q, ⟨d'.cls, store16 (neg16 d.raw) (m0 / 2 ^ k) k d'.raw⟩, ?_, ?_, rfl, ?_⟩
  · unfold Dpt.decode
    rw [h, hdec]
  · unfold Dpt.encode
    rw [h']
    simp only [Py.bind, Py.lift, Dpt.toFloat, Dpt.onRaw, k3, hsign]
  · unfold Dpt.decode
    simp only [h']
    rw [decode16_store (by omega) hk]
    · -- the normalised mantissa denotes the same number
      have hexact : m0 / 2 ^ k * 2 ^ k = m0 := by
        rcases k2 with rfl | k2
        · simp
        · -- k ≤ e, or mantissa 2048 which is halved once more
          have hdvd : 2 ^ k ∣ m0 := by
            rw [hm0e]
            by_cases hm8 : m = 2048
            · have : k ≤ e + 1 := by
                by_contra hc
                have h1 : m * 2 ^ e / 2 ^ (k - 1) ≤ m * 2 ^ e / 2 ^ e :=
                  Nat.div_le_div_left (Nat.pow_le_pow_right (by norm_num) (by omega)) (Nat.two_pow_pos e)
                have h3 : m * 2 ^ e / 2 ^ (k - 1) ≤ m * 2 ^ e / 2 ^ (e + 1) :=
                  Nat.div_le_div_left (Nat.pow_le_pow_right (by norm_num) (by omega)) (Nat.two_pow_pos _)
                rw [hm8, pow_succ, show 2048 * 2 ^ e = 1024 * (2 ^ e * 2) by ring,
                  Nat.mul_div_cancel _ (by positivity)] at h3
                rw [hm0e, hm8, show 2048 * 2 ^ e = 1024 * (2 ^ e * 2) by ring] at k2
                omega
              rw [hm8, show (2048 : Nat) = 2 ^ 11 by norm_num, ← pow_add]
              exact pow_dvd_pow 2 (by omega)
            · have : k ≤ e := by
                by_contra hc
                have h1 : m * 2 ^ e / 2 ^ (k - 1) ≤ m * 2 ^ e / 2 ^ e :=
                  Nat.div_le_div_left (Nat.pow_le_pow_right (by norm_num) (by omega)) (Nat.two_pow_pos e)
                rw [Nat.mul_div_cancel _ (Nat.two_pow_pos e)] at h1
                rw [hm0e] at k2
                omega
              exact Dvd.dvd.mul_left (pow_dvd_pow 2 this) m
          exact Nat.div_mul_cancel hdvd
      have key : prod (m0 / 2 ^ k) * 2 ^ k = prod m * 2 ^ e := by
        rw [← prod_mul_pow, hexact, hm0e, prod_mul_pow]
      congr 2
      rw [hq]
      cases neg16 d.raw
      · exact key
      · simp only [if_true, neg_mul, key]
    · intro hn
      apply b2
      rw [hm0e]
      exact Nat.mul_pos (mag16_pos hn) (Nat.two_pow_pos e)

/-- C19, the exception: 0xF800 decodes (to about -671088.64) but the number cannot be encoded. -/
theorem c19_exception (d d' : Dpt) (h : Spec.isFloat16 d.cls = true) (h' : Spec.isFloat16 d'.cls = true) (hraw : d.raw = 0xF800) :
    ∃ f, d.decode = .ok f ∧ Dpt.encode (.float f) d' = (.error .exception, d') := by
  replace h := kind_float16.1 h
  replace h' := kind_float16.1 h'
  have hdec := decode16_eq d.raw
  have hn : neg16 d.raw = true := by rw [hraw]; decide
  have hm : mag16 d.raw = 2048 := by rw [hraw]; decide
  have he : Spec.exponent16 d.raw = 15 := by rw [hraw]; decide
  rw [hn, hm, he] at hdec
  set q : ℚ := (if true then -prod 2048 else prod 2048) * 2 ^ 15 with hq
  have habs : |q| = prod 2048 * 2 ^ 15 := by
    rw [hq]
    simp [abs_mul, abs_of_nonneg (prod_nonneg 2048)]
  have hle : |q| ≤ 10 ^ 6 := by
    rw [habs]
    have := prod_le (le_refl 2048)
    norm_num at *
    linarith
  obtain ⟨m0, hm0, hm0'⟩ := roundMantissa_div (q := q) (le_trans (scaled16_bounds hle).2 (by norm_num))
  have hm0e : m0 = 2048 * 2 ^ 15 := hm0'.trans (mantissa0_decoded (le_refl _) (le_refl _) true)
  obtain ⟨k, k1, k2, k3⟩ := encode16_eq hm0 d'.raw
  obtain ⟨b1, -⟩ := normalise_bound k1 k2
  have hk : ¬ k ≤ 15 := by
    rw [b1, hm0e]
    norm_num
  rw [if_neg hk] at k3
  refine ⟨.fin q, ?_, ?_⟩
  · unfold Dpt.decode
    rw [h]
    simp only [hdec]
  · unfold Dpt.encode
    rw [h']
    simp only [Py.bind, Py.lift, Dpt.toFloat, Dpt.onRaw, k3]

example : ∃ (f : PyFloat) (r : Dpt), (⟨.valueLux, 0x7123⟩ : Dpt).decode = .ok f ∧
    Dpt.encode (.float f) ⟨.float16, 0⟩ = (.ok (), r) ∧ r.cls = .float16 ∧ r.decode = .ok f :=
  c19_stable ⟨.valueLux, 0x7123⟩ ⟨.float16, 0⟩ rfl rfl (by unfold Dpt.Wf; decide) (by decide)

/-! ## C21 range check -/

/-- Small enough numbers can be encoded. -/
theorem encode16_ok {q : ℚ} (h : |q| ≤ 6710886399 / 10 ^ 4) (raw : Nat) :
    ∃ k, k ≤ 15 ∧ mantissa0 q / 2 ^ k ≤ 2047 ∧ (k = 0 ∨ 2047 < mantissa0 q / 2 ^ (k - 1)) ∧
      encode16Float (.fin q) raw = (.ok (), store16 (decide (q < 0)) (mantissa0 q / 2 ^ k) k raw) := by
  have hle : |q| ≤ 10 ^ 6 := le_trans h (by norm_num)
  obtain ⟨m0, hm0, rfl⟩ := roundMantissa_div (q := q) (le_trans (scaled16_bounds hle).2 (by norm_num))
  obtain ⟨k, k1, k2, k3⟩ := encode16_eq hm0 raw
  have hlt : mantissa0 q < 2 ^ 26 := by
    have h1 := (mantissa0_bounds hle).1
    have h2 : (mantissa0 q : ℚ) < 67108864 := by
      norm_num at h h1
      linarith
    have h3 : mantissa0 q < 67108864 := by exact_mod_cast h2
    omega
  have hk := (normalise_bound k1 k2).1.2 hlt
  rw [if_pos hk] at k3
  exact ⟨k, hk, k1, k2, k3⟩

/-- An encode that raises leaves the datapoint as it was. -/
theorem c21_untouched (d : Dpt) (v : PyVal) (e : Err) (h : (Dpt.encode v d).1 = .error e) : (Dpt.encode v d).2 = d := by
  unfold Dpt.encode at h ⊢
  cases hk : d.cls.kind with
  | bits => rfl
  | float16 =>
    rw [hk] at h
    simp only [Py.bind, Py.lift] at h ⊢
    cases hf : Dpt.toFloat v with
    | error e' => rfl
    | ok f =>
      simp only [hf, Dpt.onRaw] at h ⊢
      have key : (encode16Float f d.raw).2 = d.raw := by
        cases hm : roundMantissa (divC001 f) with
        | error e' => simp [encode16Float, Py.bind, Py.lift, hm]
        | ok m0 =>
          obtain ⟨k, -, -, k3⟩ := encode16_eq hm d.raw
          rw [k3] at h ⊢
          by_cases hk : k ≤ 15
          · rw [if_pos hk] at h
            simp at h
          · rw [if_neg hk]
      rw [key]
  | float32 =>
    rw [hk] at h
    simp only [Py.bind, Py.lift] at h ⊢
    cases hf : Dpt.toFloat v with
    | error e' => rfl
    | ok f =>
      simp only [hf, Dpt.onRaw, Py.modify] at h
      simp at h

/-- C21: a number of magnitude up to 671088.6399 is encoded; exponent, mantissa and sign are stored in their fields
and the raw value keeps to 16 bits. -/
theorem c21_accepts (d : Dpt) (h : Spec.isFloat16 d.cls = true) (hw : d.Wf) (q : ℚ) (hq : |q| ≤ 6710886399 / 10 ^ 4) :
    ∃ r, Dpt.encode (.float (.fin q)) d = (.ok (), r) ∧ r.Wf := by
  replace h := kind_float16.1 h
  obtain ⟨k, k1, k2, k3, k4⟩ := encode16_ok hq d.raw
  refine ⟨⟨d.cls, store16 (decide (q < 0)) (mantissa0 q / 2 ^ k) k d.raw⟩, ?_, ?_⟩
  · unfold Dpt.encode
    rw [h]
    simp only [Py.bind, Py.lift, Dpt.toFloat, Dpt.onRaw, k4]
  · have ho : Spec.octets d.cls = 2 := by
      revert h
      cases d.cls <;> simp [DptClass.kind, Spec.octets]
    unfold Dpt.Wf at hw ⊢
    rw [ho] at hw
    simp only [ho]
    exact (store16_fields (by omega) k1 d.raw).2.2.2 hw

theorem scaled16_big {q : ℚ} (hq : 67108864 / 100 ≤ |q|) : (67108864 - 1 / 10 ^ 6 : ℚ) ≤ |scaled16 q| := by
  have he := scaled16_err q
  have hc := c001_bounds
  have hpos := c001_pos
  have e1 : |q / c001| = |q| / c001 := by rw [abs_div, abs_of_pos hpos]
  rw [e1] at he
  have t' := abs_sub_abs_le_abs_sub (q / c001) (scaled16 q)
  rw [abs_sub_comm, e1] at t'
  have l : 67108864 - 1 / 10 ^ 7 ≤ |q| / c001 := by
    rw [le_div_iff₀ hpos]
    have h1 : (67108864 - 1 / 10 ^ 7 : ℚ) * c001 ≤ (67108864 - 1 / 10 ^ 7) * (1 / 100 + 1 / 10 ^ 18) :=
      mul_le_mul_of_nonneg_left hc.2 (by norm_num)
    norm_num at *
    linarith
  have hsmall : (1 : ℚ) / 10 ^ 100 ≤ 1 / 10 ^ 7 := by
    apply one_div_le_one_div_of_le (by norm_num)
    exact pow_le_pow_right₀ (by norm_num) (by norm_num)
  generalize (1 : ℚ) / 10 ^ 100 = tiny at *
  have h3 : |q| / c001 / 2 ^ 53 = (1 / 2 ^ 53) * (|q| / c001) := by ring
  rw [h3] at he
  generalize |q| / c001 = x at *
  norm_num at *
  linarith

/-- C21: a number of magnitude 671088.64 or more raises, as do infinities and NaN; nothing is written. -/
theorem c21_rejects (d : Dpt) (h : Spec.isFloat16 d.cls = true) (f : PyFloat)
    (hf : f = .nan ∨ (∃ n, f = .inf n) ∨ ∃ q, f = .fin q ∧ 67108864 / 100 ≤ |q|) :
    ∃ e, Dpt.encode (.float f) d = (.error e, d) := by
  replace h := kind_float16.1 h
  have key : ∃ e, encode16Float f d.raw = (.error e, d.raw) := by
    rcases hf with rfl | ⟨n, rfl⟩ | ⟨q, rfl, hq⟩
    · exact ⟨.valueError, rfl⟩
    · exact ⟨.invalidOperation, rfl⟩
    · cases hm : roundMantissa (divC001 (.fin q)) with
      | error e => exact ⟨e, by simp [encode16Float, Py.bind, Py.lift, hm]⟩
      | ok m0 =>
        obtain ⟨k, k1, k2, k3⟩ := encode16_eq hm d.raw
        have hge : 2 ^ 26 ≤ m0 := by
          -- the scaled mantissa is at least 2^26 up to rounding
          have hs := scaled16_big hq
          have hy : divC001 (.fin q) = .fin (scaled16 q) := by
            unfold divC001 fl64 at hm ⊢
            simp only at hm ⊢
            by_cases hinf : (2 : ℚ) ^ (1024 : ℕ) ≤ |roundBin 53 (-1074) (q / c001)|
            · rw [if_pos hinf] at hm
              simp [roundMantissa] at hm
            · rw [if_neg hinf, if_neg]
              · rfl
              · rintro ⟨h0, -⟩
                unfold scaled16 at hs
                rw [h0] at hs
                norm_num at hs
          rw [hy] at hm
          unfold roundMantissa at hm
          simp only at hm
          split_ifs at hm
          simp only [Except.ok.injEq] at hm
          have hn := rhe_natAbs (100 * scaled16 q)
          rw [abs_mul, abs_of_pos (by norm_num : (0 : ℚ) < 100)] at hn
          have hr : (6710886400 : Int) ≤ rhe (100 * |scaled16 q|) := by
            have h1 := rhe_mono (a := 6710886400 - 1 / 10 ^ 4) (b := 100 * |scaled16 q|) (by norm_num at *; linarith)
            have h2 : rhe (6710886400 - 1 / 10 ^ 4) = 6710886400 := by
              apply rhe_near
              rw [abs_lt]
              norm_num
            omega
          omega
        have hk : ¬ k ≤ 15 := by
          rw [(normalise_bound k1 k2).1]
          omega
        rw [if_neg hk] at k3
        exact ⟨.exception, k3⟩
  obtain ⟨e, he⟩ := key
  refine ⟨e, ?_⟩
  unfold Dpt.encode
  rw [h]
  simp only [Py.bind, Py.lift, Dpt.toFloat, Dpt.onRaw, he]

example : ∃ r, Dpt.encode (.float (.fin (2150 / 100))) ⟨.valueTemp, 0⟩ = (.ok (), r) ∧ r.Wf :=
  c21_accepts ⟨.valueTemp, 0⟩ rfl (by unfold Dpt.Wf; decide) _ (by rw [abs_of_pos] <;> norm_num)
example : ∃ e, Dpt.encode (.float (.fin (-700000))) ⟨.valueTemp, 7⟩ = (.error e, ⟨.valueTemp, 7⟩) :=
  c21_rejects ⟨.valueTemp, 7⟩ rfl _ (Or.inr (Or.inr ⟨_, rfl, by rw [abs_of_neg] <;> norm_num⟩))

/-- Encoding raises exactly if the double quotient of the number and 0.01, rounded half even to hundredths, has a
magnitude of 2^26 or more, that is if it does not fit the mantissa under the largest exponent. -/
theorem encode16_refuses (d : Dpt) (h : Spec.isFloat16 d.cls = true) (q : ℚ) :
    (∃ e, Dpt.encode (.float (.fin q)) d = (.error e, d)) ↔ 67108863995 / 1000 ≤ |roundBin 53 (-1074) (q / c001)| := by
  replace h := kind_float16.1 h
  change _ ↔ _ ≤ |scaled16 q|
  by_cases hle : |q| ≤ 10 ^ 6
  · obtain ⟨m0, hm0, hm0'⟩ := roundMantissa_div (q := q) (le_trans (scaled16_bounds hle).2 (by norm_num))
    obtain ⟨k, k1, k2, k3⟩ := encode16_eq hm0 d.raw
    have hk := (normalise_bound k1 k2).1
    have henc : Dpt.encode (.float (.fin q)) d = Dpt.onRaw (encode16Float (.fin q)) d := by
      unfold Dpt.encode
      rw [h]
      rfl
    have hthr : 2 ^ 26 ≤ m0 ↔ 67108863995 / 1000 ≤ |scaled16 q| := by
      have hn : 0 ≤ rhe (100 * |scaled16 q|) := rhe_nonneg (by positivity)
      have e1 : 2 ^ 26 ≤ m0 ↔ 6710886400 ≤ rhe (100 * |scaled16 q|) := by
        rw [hm0']
        omega
      rw [e1]
      constructor
      · intro hr
        have h1 := rhe_err (100 * |scaled16 q|)
        rw [abs_le] at h1
        have h2 : ((6710886400 : Int) : ℚ) ≤ (rhe (100 * |scaled16 q|) : Int) := by exact_mod_cast hr
        push_cast at h2
        linarith
      · intro hr
        have h1 := rhe_mono (a := 67108863995 / 10) (b := 100 * |scaled16 q|) (by linarith)
        have h2 : rhe (67108863995 / 10) = 6710886400 := by
          have hf : ⌊(67108863995 / 10 : ℚ)⌋ = 6710886399 := by
            rw [Int.floor_eq_iff]
            norm_num
          unfold rhe
          rw [hf]
          norm_num
        omega
    rw [henc, ← hthr]
    unfold Dpt.onRaw
    rw [k3]
    by_cases hk15 : k ≤ 15
    · rw [if_pos hk15]
      have := hk.1 hk15
      constructor
      · rintro ⟨e, he⟩
        simp at he
      · intro hge
        omega
    · rw [if_neg hk15]
      have : ¬ m0 < 2 ^ 26 := fun hc => hk15 (hk.2 hc)
      exact ⟨fun _ => by omega, fun _ => ⟨.exception, rfl⟩⟩
  · have hbig : 67108864 / 100 ≤ |q| := by norm_num at hle ⊢; linarith
    refine ⟨fun _ => ?_, fun _ => c21_rejects d (kind_float16.2 h) _ (Or.inr (Or.inr ⟨q, rfl, hbig⟩))⟩
    have := scaled16_big hbig
    norm_num at this ⊢
    linarith

example : 67108863995 / 1000 ≤ |roundBin 53 (-1074) (-700000 / c001)| :=
  (encode16_refuses ⟨.valueTemp, 0⟩ rfl (-700000)).1
    (c21_rejects ⟨.valueTemp, 0⟩ rfl _ (Or.inr (Or.inr ⟨_, rfl, by rw [abs_of_neg] <;> norm_num⟩)))

/-! ## C20 encoding error -/

/-- C20, for numbers that are not negative or at most -0.01: decoding the encoded number gives a number of the same sign
whose magnitude exceeds that of the given number by at most 0.000051 (the half hundredth of a step to which the
mantissa is rounded first) and falls short of it by at most one step `0.01 * 2^E` (plus as much). Missing from the full
claim: negative numbers above -0.01 (`c20_refuted`). -/
theorem c20_partial (d : Dpt) (h : Spec.isFloat16 d.cls = true) (q : ℚ) (hq : |q| ≤ 6710886399 / 10 ^ 4)
    (hq0 : 0 ≤ q ∨ q ≤ -1 / 100) :
    ∃ (r : Dpt) (x : ℚ), Dpt.encode (.float (.fin q)) d = (.ok (), r) ∧ r.decode = .ok (.fin x) ∧
      (0 ≤ q → 0 ≤ x) ∧ (q < 0 → x < 0) ∧ |x| ≤ |q| + 51 / 10 ^ 6 ∧
      |q| - 1 / 100 * 2 ^ Spec.exponent16 r.raw - 51 / 10 ^ 6 ≤ |x| := by
  replace h := kind_float16.1 h
  have hle : |q| ≤ 10 ^ 6 := le_trans hq (by norm_num)
  obtain ⟨k, k1, k2, k3, k4⟩ := encode16_ok hq d.raw
  obtain ⟨-, b2, b3, b4⟩ := normalise_bound k2 k3
  obtain ⟨m1, m2, m3⟩ := mantissa0_bounds hle
  have hpos : decide (q < 0) = true → 1 ≤ mantissa0 q / 2 ^ k := by
    intro hn
    apply b2
    have hqn : q ≤ -1 / 100 := by
      rcases hq0 with h0 | h0
      · exact absurd (by simpa using hn) (not_lt.2 h0)
      · exact h0
    apply m3
    have hs := (scaled16_bounds hle).1
    rw [abs_of_neg (by linarith : q < 0), abs_le] at hs
    have h1 := rhe_mono (a := 100 - 1 / 10 ^ 3) (b := 100 * |scaled16 q|) (by norm_num at *; linarith)
    have h2 : rhe (100 - 1 / 10 ^ 3) = 100 := by
      apply rhe_near
      rw [abs_lt]
      norm_num
    rw [h2] at h1
    push_cast
    have : ((100 : Int) : ℚ) ≤ (rhe (100 * |scaled16 q|) : Int) := by exact_mod_cast h1
    push_cast at this
    linarith
  set m := mantissa0 q / 2 ^ k with hm
  have hdec := decode16_store (neg := decide (q < 0)) k2 k1 hpos d.raw
  have hE : Spec.exponent16 (store16 (decide (q < 0)) m k d.raw) = k := (store16_fields k2 k1 d.raw).2.1
  have hpn := prod_nonneg m
  have h2k : (0 : ℚ) < 2 ^ k := by positivity
  have habs : |(if decide (q < 0) then -prod m else prod m) * (2 : ℚ) ^ k| = prod m * 2 ^ k := by
    cases decide (q < 0) <;> simp [abs_mul, abs_of_nonneg hpn]
  refine ⟨⟨d.cls, store16 (decide (q < 0)) m k d.raw⟩, (if decide (q < 0) then -prod m else prod m) * 2 ^ k,
    ?_, ?_, ?_, ?_, ?_, ?_⟩
  · unfold Dpt.encode
    rw [h]
    simp only [Py.bind, Py.lift, Dpt.toFloat, Dpt.onRaw, k4]
  · unfold Dpt.decode
    simp only [h]
    rw [hdec]
  · intro h0
    have : decide (q < 0) = false := by simpa using h0
    rw [this]
    exact mul_nonneg hpn (le_of_lt h2k)
  · intro h0
    have : decide (q < 0) = true := by simpa using h0
    have hp := prod_pos (hpos this)
    rw [this]
    simp only [if_true]
    nlinarith
  all_goals
    rw [habs]
    -- the product is close to a hundredth of the mantissa
    have hM : (m : ℚ) * 2 ^ k ≤ mantissa0 q := by exact_mod_cast b3
    have hM' : (mantissa0 q : ℚ) + 1 ≤ (m : ℚ) * 2 ^ k + 2 ^ k := by exact_mod_cast b4
    have herr := prod_err m
    have hc := c001_bounds
    rw [abs_le] at herr
    have hm0 : (0 : ℚ) ≤ (m : ℚ) * 2 ^ k := by positivity
    have hMl : (m : ℚ) * 2 ^ k ≤ 10 ^ 8 := by
      norm_num at *
      linarith
    have up : prod m * 2 ^ k ≤ c001 * (m * 2 ^ k) + c001 * (m * 2 ^ k) / 2 ^ 53 := by
      have := mul_le_mul_of_nonneg_right (by linarith [herr.2] : prod m ≤ c001 * m + c001 * m / 2 ^ 53) (le_of_lt h2k)
      calc prod m * 2 ^ k ≤ (c001 * m + c001 * m / 2 ^ 53) * 2 ^ k := this
        _ = _ := by ring
    have lo : c001 * (m * 2 ^ k) - c001 * (m * 2 ^ k) / 2 ^ 53 ≤ prod m * 2 ^ k := by
      have := mul_le_mul_of_nonneg_right (by linarith [herr.1] : c001 * m - c001 * m / 2 ^ 53 ≤ prod m) (le_of_lt h2k)
      calc c001 * (m * 2 ^ k) - c001 * (m * 2 ^ k) / 2 ^ 53 = (c001 * m - c001 * m / 2 ^ 53) * 2 ^ k := by ring
        _ ≤ _ := this
    have c1 : c001 * (m * 2 ^ k) ≤ m * 2 ^ k / 100 + m * 2 ^ k / 10 ^ 18 := by
      have := mul_le_mul_of_nonneg_right hc.2 hm0
      linarith
    have c2 : (m : ℚ) * 2 ^ k / 100 ≤ c001 * (m * 2 ^ k) := by
      have := mul_le_mul_of_nonneg_right hc.1 hm0
      linarith
  · generalize (m : ℚ) * 2 ^ k = M at *
    generalize c001 * M = P at *
    norm_num at *
    linarith
  · simp only [hE]
    generalize (m : ℚ) * 2 ^ k = M at *
    generalize c001 * M = P at *
    norm_num at *
    linarith

example : ∃ (r : Dpt) (x : ℚ), Dpt.encode (.float (.fin 10000)) ⟨.valueLux, 0⟩ = (.ok (), r) ∧
    r.decode = .ok (.fin x) ∧ |x| ≤ 10000 + 51 / 10 ^ 6 := by
  obtain ⟨r, x, h1, h2, -, -, h5, -⟩ := c20_partial ⟨.valueLux, 0⟩ rfl 10000
    (by rw [abs_of_pos] <;> norm_num) (Or.inl (by norm_num))
  refine ⟨r, x, h1, h2, ?_⟩
  rwa [abs_of_pos (by norm_num : (0 : ℚ) < 10000)] at h5

/-- C20 is false near zero: every negative number above -0.0099 is accepted and decodes to about -20.48. -/
theorem c20_refuted (d : Dpt) (h : Spec.isFloat16 d.cls = true) (q : ℚ) (hq : -99 / 10000 ≤ q) (hq0 : q < 0) :
    ∃ (r : Dpt) (x : ℚ), Dpt.encode (.float (.fin q)) d = (.ok (), r) ∧ r.decode = .ok (.fin x) ∧ x < -20 := by
  replace h := kind_float16.1 h
  have habs : |q| = -q := abs_of_neg hq0
  have hle : |q| ≤ 10 ^ 6 := by rw [habs]; norm_num; linarith
  obtain ⟨k, k1, k2, k3, k4⟩ := encode16_ok (q := q) (by rw [habs]; norm_num; linarith) d.raw
  have hm0 : mantissa0 q = 0 := by
    have h1 := (scaled16_bounds hle).1
    have h2 := rhe_mono (a := 100 * |scaled16 q|) (b := 99 + 1 / 10 ^ 3)
      (by rw [abs_le, habs] at h1; norm_num at *; linarith)
    have h3 : rhe (99 + 1 / 10 ^ 3) = 99 := by
      apply rhe_near
      rw [abs_lt]
      norm_num
    unfold mantissa0
    omega
  have hk : k = 0 := by
    rcases k3 with h | h
    · exact h
    · rw [hm0] at h
      simp at h
  subst hk
  rw [hm0] at k4
  simp only [Nat.zero_div] at k4
  have hneg : decide (q < 0) = true := by simpa using hq0
  rw [hneg] at k4
  obtain ⟨f1, f2, f3, -⟩ := store16_fields (neg := true) (m := 0) (e := 0) (by omega) (by omega) d.raw
  simp only [true_and, if_true] at f3
  refine ⟨⟨d.cls, store16 true 0 0 d.raw⟩, -prod 2048, ?_, ?_, ?_⟩
  · unfold Dpt.encode
    rw [h]
    simp only [Py.bind, Py.lift, Dpt.toFloat, Dpt.onRaw, k4]
  · unfold Dpt.decode
    simp only [h]
    rw [decode16_eq, f1, f2, f3]
    simp
  · have h1 := prod_err 2048
    have hc := c001_bounds
    rw [abs_le] at h1
    norm_num at *
    linarith

example : ∃ (r : Dpt) (x : ℚ), Dpt.encode (.float (.fin (-1 / 256))) ⟨.valueTemp, 0⟩ = (.ok (), r) ∧
    r.decode = .ok (.fin x) ∧ x < -20 := c20_refuted ⟨.valueTemp, 0⟩ rfl (-1 / 256) (by norm_num) (by norm_num)

/-- C20 is false for -0.0 too. -/
theorem c20_negzero_refuted (d : Dpt) (h : Spec.isFloat16 d.cls = true) :
    ∃ (r : Dpt) (x : ℚ), Dpt.encode (.float .negZero) d = (.ok (), r) ∧ r.decode = .ok (.fin x) ∧ x < -20 := by
  replace h := kind_float16.1 h
  obtain ⟨f1, f2, f3, -⟩ := store16_fields (neg := true) (m := 0) (e := 0) (by omega) (by omega) d.raw
  simp only [true_and, if_true] at f3
  refine ⟨⟨d.cls, store16 true 0 0 d.raw⟩, -prod 2048, ?_, ?_, ?_⟩
  · unfold Dpt.encode
    rw [h]
    have hn : normalise 0 0 = (0, 0) := by unfold normalise; rfl
    simp [Py.bind, Py.lift, Dpt.toFloat, Dpt.onRaw, encode16Float, divC001, roundMantissa, hn, Py.modify,
      PyFloat.signNeg]
  · unfold Dpt.decode
    simp only [h]
    rw [decode16_eq, f1, f2, f3]
    simp
  · have h1 := prod_err 2048
    have hc := c001_bounds
    rw [abs_le] at h1
    norm_num at *
    linarith

example : ∃ (r : Dpt) (x : ℚ), Dpt.encode (.float .negZero) ⟨.valueWsp, 0x1234⟩ = (.ok (), r) ∧
    r.decode = .ok (.fin x) ∧ x < -20 := c20_negzero_refuted ⟨.valueWsp, 0x1234⟩ rfl

end Knx
