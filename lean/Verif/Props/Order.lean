import Verif.Props.Float16
import Verif.Props.Float32

/-! # C73: floats and order; C22: overflow -/

namespace Knx

/-- Specification: the number a float denotes, if it is finite. -/
def Spec.finite : PyFloat → Option ℚ
  | .fin q => some q
  | .negZero => some 0
  | _ => none

/-- Rounding preserves order. -/
theorem roundBin_mono {p : Nat} {emin : Int} (hp : 1 ≤ p) {a b : ℚ} (h : a ≤ b) : roundBin p emin a ≤ roundBin p emin b := by
  have pos : ∀ {a b : ℚ}, 0 < a → a ≤ b → roundBin p emin a ≤ roundBin p emin b := by
    intro a b ha hab
    have hb : 0 < b := lt_of_lt_of_le ha hab
    have hl : Int.log 2 |a| ≤ Int.log 2 |b| := by
      rw [abs_of_pos ha, abs_of_pos hb]
      exact Int.log_mono_right ha hab
    rw [roundBin_of_ne ha.ne', roundBin_of_ne hb.ne']
    have hu : ulpExp p emin a ≤ ulpExp p emin b := by
      unfold ulpExp
      omega
    rcases eq_or_lt_of_le hu with he | he
    · rw [he]
      have := rhe_mono (div_le_div_of_nonneg_right hab (le_of_lt (two_zpow_pos (ulpExp p emin b))))
      have : ((rhe (a / (2 : ℚ) ^ ulpExp p emin b) : Int) : ℚ) ≤ rhe (b / (2 : ℚ) ^ ulpExp p emin b) := by exact_mod_cast this
      exact mul_le_mul_of_nonneg_right this (le_of_lt (two_zpow_pos _))
    · -- between the two there is a power of two
      have hub : ulpExp p emin b = Int.log 2 |b| + 1 - p := by
        unfold ulpExp at he ⊢
        omega
      have hlt : Int.log 2 |a| < Int.log 2 |b| := by
        unfold ulpExp at he
        omega
      have whole : ∀ u : Int, u ≤ Int.log 2 |b| →
          ∃ n : Int, (n : ℚ) * (2 : ℚ) ^ u = (2 : ℚ) ^ Int.log 2 |b| ∧ (2 : ℚ) ^ Int.log 2 |b| / (2 : ℚ) ^ u = n := by
        intro u hu
        obtain ⟨k, hk⟩ := Int.le.dest hu
        refine ⟨2 ^ k, ?_, ?_⟩
        · rw [← hk, zpow_add₀ (by norm_num), zpow_natCast]
          push_cast
          ring
        · rw [← hk, zpow_add₀ (by norm_num), zpow_natCast]
          push_cast
          field_simp
      have h1 : ((rhe (a / (2 : ℚ) ^ ulpExp p emin a) : Int) : ℚ) * (2 : ℚ) ^ ulpExp p emin a ≤ (2 : ℚ) ^ Int.log 2 |b| := by
        obtain ⟨n, hn, hn'⟩ := whole (ulpExp p emin a) (by omega)
        rw [← hn]
        have ha' : a ≤ (2 : ℚ) ^ Int.log 2 |b| := by
          have := lt_zpow_log a
          rw [abs_of_pos ha] at this hlt
          refine le_trans (le_of_lt this) (zpow_le_zpow_right₀ (by norm_num) (by omega))
        have := rhe_mono (div_le_div_of_nonneg_right ha' (le_of_lt (two_zpow_pos (ulpExp p emin a))))
        rw [hn', rhe_int] at this
        have : ((rhe (a / (2 : ℚ) ^ ulpExp p emin a) : Int) : ℚ) ≤ n := by exact_mod_cast this
        exact mul_le_mul_of_nonneg_right this (le_of_lt (two_zpow_pos _))
      have h2 : (2 : ℚ) ^ Int.log 2 |b| ≤ ((rhe (b / (2 : ℚ) ^ ulpExp p emin b) : Int) : ℚ) * (2 : ℚ) ^ ulpExp p emin b := by
        obtain ⟨n, hn, hn'⟩ := whole (ulpExp p emin b) (by omega)
        rw [← hn]
        have hb' : (2 : ℚ) ^ Int.log 2 |b| ≤ b := by
          have := zpow_log_le hb.ne'
          rwa [abs_of_pos hb] at this ⊢
        have := rhe_mono (div_le_div_of_nonneg_right hb' (le_of_lt (two_zpow_pos (ulpExp p emin b))))
        rw [hn', rhe_int] at this
        have : ((n : Int) : ℚ) ≤ rhe (b / (2 : ℚ) ^ ulpExp p emin b) := by exact_mod_cast this
        exact mul_le_mul_of_nonneg_right this (le_of_lt (two_zpow_pos _))
      exact le_trans h1 h2
  have nonneg : ∀ {a b : ℚ}, 0 ≤ a → a ≤ b → roundBin p emin a ≤ roundBin p emin b := by
    intro a b ha hab
    rcases eq_or_lt_of_le ha with rfl | ha
    · rw [roundBin_zero]
      exact roundBin_nonneg hab
    · exact pos ha hab
  rcases le_total 0 a with ha | ha
  · exact nonneg ha h
  · rcases le_total 0 b with hb | hb
    · refine le_trans ?_ (roundBin_nonneg hb)
      have := roundBin_nonneg (p := p) (emin := emin) (q := -a) (by linarith)
      rw [roundBin_neg] at this
      linarith
    · have := nonneg (a := -b) (b := -a) (by linarith) (by linarith)
      rw [roundBin_neg, roundBin_neg] at this
      linarith

/-! ## The decoder of the 2 octet float -/

theorem prod_strict {m n : Nat} (h : m < n) (hn : n ≤ 2 ^ 26) : prod m < prod n := by
  have e1 := prod_err m
  have e2 := prod_err n
  have hc := c001_bounds
  have hmn : (m : ℚ) + 1 ≤ n := by exact_mod_cast h
  have hn' : (n : ℚ) ≤ 2 ^ 26 := by exact_mod_cast hn
  have hm0 : (0 : ℚ) ≤ m := by positivity
  rw [abs_le] at e1 e2
  have h1 : c001 * m + c001 ≤ c001 * n := by
    have := mul_le_mul_of_nonneg_left hmn (le_of_lt c001_pos)
    linarith
  have h2 : c001 * n ≤ c001 * 2 ^ 26 := mul_le_mul_of_nonneg_left hn' (le_of_lt c001_pos)
  generalize c001 * (m : ℚ) = a at *
  generalize c001 * (n : ℚ) = b at *
  norm_num at *
  linarith

/-- The number of a raw value in hundredths. -/
def hundredths (raw : Nat) : Int := Spec.mantissa16 raw * 2 ^ Spec.exponent16 raw

theorem hundredths_eq (raw : Nat) : hundredths raw =
    if neg16 raw then -((mag16 raw * 2 ^ Spec.exponent16 raw : Nat) : Int) else ((mag16 raw * 2 ^ Spec.exponent16 raw : Nat) : Int) := by
  have h := mantissa_mag raw
  have h' : Spec.mantissa16 raw = (if neg16 raw then -1 else 1) * (mag16 raw : Int) := by exact_mod_cast h
  unfold hundredths
  rw [h']
  cases neg16 raw <;> simp

theorem decode16_hundredths (raw : Nat) : decode16 raw = .fin (if neg16 raw then -prod (hundredths raw).natAbs
    else prod (hundredths raw).natAbs) := by
  rw [decode16_eq, hundredths_eq]
  cases neg16 raw <;> simp only [Bool.false_eq_true, if_false, if_true, Int.natAbs_neg, Int.natAbs_natCast, prod_mul_pow] <;> ring_nf

theorem hundredths_bound (raw : Nat) : (hundredths raw).natAbs ≤ 2 ^ 26 ∧ (neg16 raw = true ↔ hundredths raw < 0) := by
  rw [hundredths_eq]
  have h1 := mag16_le raw
  have h2 : Spec.exponent16 raw ≤ 15 := by unfold Spec.exponent16; omega
  have h3 : 2 ^ Spec.exponent16 raw ≤ 2 ^ 15 := Nat.pow_le_pow_right (by norm_num) h2
  have h4 : mag16 raw * 2 ^ Spec.exponent16 raw ≤ 2048 * 2 ^ 15 := Nat.mul_le_mul h1 h3
  have h5 := mag16_pos (raw := raw)
  have h6 := Nat.two_pow_pos (Spec.exponent16 raw)
  cases hn : neg16 raw with
  | true =>
    have := Nat.mul_le_mul (h5 hn) h6
    simp only [if_true, true_iff]
    generalize mag16 raw * 2 ^ Spec.exponent16 raw = n at *
    omega
  | false =>
    simp only [Bool.false_eq_true, if_false, false_iff]
    generalize mag16 raw * 2 ^ Spec.exponent16 raw = n at *
    omega

/-- C73: the decoder preserves order. Of two raw values, the one with the smaller number `0.01 * M * 2^E` is decoded to the
smaller number. -/
theorem c73_decode (d d' : Dpt) (h : Spec.isFloat16 d.cls = true) (h' : Spec.isFloat16 d'.cls = true) :
    ∃ x x' : ℚ, d.decode = .ok (.fin x) ∧ d'.decode = .ok (.fin x') ∧
      (x < x' ↔ (Spec.mantissa16 d.raw : ℚ) / 100 * 2 ^ Spec.exponent16 d.raw <
        (Spec.mantissa16 d'.raw : ℚ) / 100 * 2 ^ Spec.exponent16 d'.raw) := by
  replace h := kind_float16.1 h
  replace h' := kind_float16.1 h'
  refine ⟨_, _, by unfold Dpt.decode; rw [h]; simp only; rw [decode16_hundredths],
    by unfold Dpt.decode; rw [h']; simp only; rw [decode16_hundredths], ?_⟩
  have hs : ∀ raw : Nat, (Spec.mantissa16 raw : ℚ) / 100 * 2 ^ Spec.exponent16 raw = (hundredths raw : ℚ) / 100 := by
    intro raw
    unfold hundredths
    push_cast
    ring
  have hlt : ((hundredths d.raw : ℚ) / 100 < (hundredths d'.raw : ℚ) / 100) ↔ hundredths d.raw < hundredths d'.raw := by
    rw [div_lt_div_iff_of_pos_right (by norm_num)]
    exact_mod_cast Iff.rfl
  rw [hs, hs, hlt]
  obtain ⟨a1, a2⟩ := hundredths_bound d.raw
  obtain ⟨b1, b2⟩ := hundredths_bound d'.raw
  generalize hundredths d.raw = m at *
  generalize hundredths d'.raw = n at *
  have mono : ∀ {i j : Nat}, i ≤ 2 ^ 26 → j ≤ 2 ^ 26 → (prod i < prod j ↔ i < j) := by
    intro i j hi hj
    constructor
    · intro hp
      by_contra hc
      rcases Nat.lt_or_eq_of_le (not_lt.1 hc) with hc | hc
      · exact absurd (prod_strict hc hi) (not_lt.2 (le_of_lt hp))
      · subst hc
        exact lt_irrefl _ hp
    · exact fun hij => prod_strict hij hj
  have hp1 := prod_nonneg m.natAbs
  have hp2 := prod_nonneg n.natAbs
  cases hm : neg16 d.raw <;> cases hn : neg16 d'.raw <;>
    simp only [hm, hn, Bool.false_eq_true, if_false, if_true, true_iff, false_iff] at a2 b2 ⊢
  · rw [mono a1 b1]
    omega
  · constructor
    · intro hc
      linarith
    · omega
  · have : 0 < prod m.natAbs := prod_pos (by omega)
    constructor
    · omega
    · intro _
      linarith
  · rw [neg_lt_neg_iff, mono b1 a1]
    omega

example : ∃ x x' : ℚ, (Dpt.mk .valueTemp 0x8A24).decode = .ok (.fin x) ∧ (Dpt.mk .valueLux 0x0C3D).decode = .ok (.fin x') ∧ x < x' := by
  obtain ⟨x, x', h1, h2, h3⟩ := c73_decode ⟨.valueTemp, 0x8A24⟩ ⟨.valueLux, 0x0C3D⟩ rfl rfl
  exact ⟨x, x', h1, h2, h3.2 (by norm_num [Spec.mantissa16, Spec.exponent16])⟩

/-! ## The encoder of the 2 octet float -/

/-- What is stored for a number that is accepted. -/
theorem encode16_accepted {d r : Dpt} (h : d.cls.kind = .float16) {q : ℚ} (hr : Dpt.encode (.float (.fin q)) d = (.ok (), r)) :
    |q| ≤ 10 ^ 6 ∧ ∃ k, k ≤ 15 ∧ mantissa0 q / 2 ^ k ≤ 2047 ∧ (k = 0 ∨ 2047 < mantissa0 q / 2 ^ (k - 1)) ∧
      r = ⟨d.cls, store16 (decide (q < 0)) (mantissa0 q / 2 ^ k) k d.raw⟩ := by
  have hle : |q| ≤ 10 ^ 6 := by
    by_contra hc
    obtain ⟨e, he⟩ := c21_rejects d (kind_float16.2 h) (.fin q) (.inr (.inr ⟨q, rfl, by push Not at hc; norm_num at hc ⊢; linarith⟩))
    rw [he] at hr
    cases hr
  refine ⟨hle, ?_⟩
  obtain ⟨m0, hm0, rfl⟩ := roundMantissa_div (q := q) (le_trans (scaled16_bounds hle).2 (by norm_num))
  obtain ⟨k, k1, k2, k3⟩ := encode16_eq hm0 d.raw
  unfold Dpt.encode at hr
  rw [h] at hr
  simp only [Py.bind, Py.lift, Dpt.toFloat, Dpt.onRaw, k3] at hr
  by_cases hk : k ≤ 15
  · rw [if_pos hk] at hr
    cases hr
    exact ⟨k, hk, k1, k2, rfl⟩
  · rw [if_neg hk] at hr
    cases hr

/-- Truncating to the normalised mantissa preserves order. -/
theorem truncate_mono {n n' k k' : Nat} (h : n ≤ n') (h2 : n / 2 ^ k ≤ 2047) (h3 : k = 0 ∨ 2047 < n / 2 ^ (k - 1))
    (h2' : n' / 2 ^ k' ≤ 2047) (h3' : k' = 0 ∨ 2047 < n' / 2 ^ (k' - 1)) : n / 2 ^ k * 2 ^ k ≤ n' / 2 ^ k' * 2 ^ k' := by
  have hk : k ≤ k' := by
    by_contra hc
    push Not at hc
    rcases h3 with h3 | h3
    · omega
    · have h4 : 2 ^ k' ≤ 2 ^ (k - 1) := Nat.pow_le_pow_right (by norm_num) (by omega)
      have h5 : n / 2 ^ (k - 1) ≤ n' / 2 ^ k' := Nat.div_le_div h h4 (Nat.two_pow_pos _).ne'
      omega
  rcases Nat.lt_or_eq_of_le hk with hlt | rfl
  · -- the larger one is at least 2^(10 + k'), the smaller one below 2^(11 + k)
    have h5 : n < 2 ^ 11 * 2 ^ k := (Nat.div_lt_iff_lt_mul (Nat.two_pow_pos _)).1 (by omega)
    have h6 : n / 2 ^ k * 2 ^ k ≤ n := Nat.div_mul_le_self _ _
    have h7 : 2 ^ 11 * 2 ^ (k' - 1) ≤ n' := (Nat.le_div_iff_mul_le (Nat.two_pow_pos _)).1 (by omega)
    have e : 2 ^ k' = 2 ^ (k' - 1) * 2 := by rw [← pow_succ]; congr 1; omega
    have h8 : 2 ^ 10 ≤ n' / 2 ^ k' := by
      rw [Nat.le_div_iff_mul_le (Nat.two_pow_pos _), e]
      omega
    have h9 : 2 ^ k ≤ 2 ^ (k' - 1) := Nat.pow_le_pow_right (by norm_num) (by omega)
    have h10 : 2 ^ 10 * 2 ^ k' ≤ n' / 2 ^ k' * 2 ^ k' := Nat.mul_le_mul_right _ h8
    rw [e] at h10 ⊢
    generalize 2 ^ k = u at *
    generalize 2 ^ (k' - 1) = v at *
    generalize n' / (v * 2) * (v * 2) = w at *
    omega
  · exact Nat.mul_le_mul_right _ (Nat.div_le_div_right h)

theorem mantissa0_mono {q q' : ℚ} (h : |q| ≤ |q'|) : mantissa0 q ≤ mantissa0 q' := by
  have key : ∀ q, |scaled16 q| = roundBin 53 (-1074) (|q| / c001) := by
    intro q
    unfold scaled16
    rw [roundBin_abs, abs_div, abs_of_pos c001_pos]
  unfold mantissa0
  rw [key, key]
  have h1 := roundBin_mono (p := 53) (emin := -1074) (by norm_num) (div_le_div_of_nonneg_right h (le_of_lt c001_pos))
  have h2 := rhe_mono (mul_le_mul_of_nonneg_left h1 (by norm_num : (0 : ℚ) ≤ 100))
  exact Nat.div_le_div_right (by omega)

theorem mantissa0_pos {q : ℚ} (hle : |q| ≤ 10 ^ 6) (hq : q ≤ -1 / 100) : 1 ≤ mantissa0 q := by
  apply (mantissa0_bounds hle).2.2
  have hs := (scaled16_bounds hle).1
  rw [abs_of_neg (by linarith : q < 0), abs_le] at hs
  have h1 := rhe_mono (a := 100 - 1 / 10 ^ 3) (b := 100 * |scaled16 q|) (by norm_num at *; linarith)
  have h2 : rhe (100 - 1 / 10 ^ 3) = 100 := by
    apply rhe_near
    rw [abs_lt]
    norm_num
  rw [h2] at h1
  push_cast
  have : ((100 : Int) : ℚ) ≤ (rhe (100 * |scaled16 q|) : Int) := by exact_mod_cast h1
  push_cast at this
  linarith

/-- What holds of C73: of two numbers that are accepted, neither between -0.01 and 0, the smaller one is not stored as the
greater one. Missing from the full claim: numbers between -0.01 and 0 (`c73_refuted`). -/
theorem c73_encode_partial {d d' r r' : Dpt} (h : Spec.isFloat16 d.cls = true) (h' : Spec.isFloat16 d'.cls = true) {q q' : ℚ} (hle : q ≤ q')
    (hr : Dpt.encode (.float (.fin q)) d = (.ok (), r)) (hr' : Dpt.encode (.float (.fin q')) d' = (.ok (), r'))
    (hq : 0 ≤ q ∨ q ≤ -1 / 100) (hq' : 0 ≤ q' ∨ q' ≤ -1 / 100) :
    ∃ x x' : ℚ, r.decode = .ok (.fin x) ∧ r'.decode = .ok (.fin x') ∧ x ≤ x' := by
  replace h := kind_float16.1 h
  replace h' := kind_float16.1 h'
  have one : ∀ {d r : Dpt} {q : ℚ}, d.cls.kind = .float16 → Dpt.encode (.float (.fin q)) d = (.ok (), r) →
      (0 ≤ q ∨ q ≤ -1 / 100) → ∃ k, mantissa0 q / 2 ^ k ≤ 2047 ∧ (k = 0 ∨ 2047 < mantissa0 q / 2 ^ (k - 1)) ∧
        r.decode = .ok (.fin (if q < 0 then -prod (mantissa0 q / 2 ^ k * 2 ^ k) else prod (mantissa0 q / 2 ^ k * 2 ^ k))) := by
    intro d r q h hr hq
    obtain ⟨h6, k, k1, k2, k3, rfl⟩ := encode16_accepted h hr
    refine ⟨k, k2, k3, ?_⟩
    have hpos : decide (q < 0) = true → 1 ≤ mantissa0 q / 2 ^ k := by
      intro hn
      have hn : q < 0 := by simpa using hn
      exact (normalise_bound k2 k3).2.1 (mantissa0_pos h6 (hq.resolve_left (not_le.2 hn)))
    unfold Dpt.decode
    simp only [h]
    rw [decode16_store k2 k1 hpos, prod_mul_pow]
    by_cases hn : q < 0 <;> simp [hn]
  obtain ⟨k, k2, k3, k4⟩ := one h hr hq
  obtain ⟨k', k2', k3', k4'⟩ := one h' hr' hq'
  refine ⟨_, _, k4, k4', ?_⟩
  have mono : ∀ {m n : Nat}, m ≤ n → prod m ≤ prod n := by
    intro m n hmn
    unfold prod
    refine roundBin_mono (by norm_num) (mul_le_mul_of_nonneg_left ?_ (le_of_lt c001_pos))
    exact_mod_cast hmn
  by_cases hn : q < 0
  · by_cases hn' : q' < 0
    · rw [if_pos hn, if_pos hn', neg_le_neg_iff]
      exact mono (truncate_mono (mantissa0_mono (by rw [abs_of_neg hn, abs_of_neg hn']; linarith)) k2' k3' k2 k3)
    · rw [if_pos hn, if_neg hn']
      have := prod_nonneg (mantissa0 q / 2 ^ k * 2 ^ k)
      have := prod_nonneg (mantissa0 q' / 2 ^ k' * 2 ^ k')
      linarith
  · have hn' : ¬ q' < 0 := by linarith
    rw [if_neg hn, if_neg hn']
    exact mono (truncate_mono (mantissa0_mono (by rw [abs_of_nonneg (by linarith), abs_of_nonneg (by linarith)]; exact hle)) k2 k3 k2' k3')

/-- C73 is false: every negative number above -0.0099 is stored as less than every number from -19 to -0.01. -/
theorem c73_refuted (d d' : Dpt) (h : Spec.isFloat16 d.cls = true) (h' : Spec.isFloat16 d'.cls = true) {q q' : ℚ} (hq : -19 ≤ q)
    (hq1 : q ≤ -1 / 100) (hq' : -99 / 10000 ≤ q') (hq1' : q' < 0) :
    q < q' ∧ ∃ (r r' : Dpt) (x x' : ℚ), Dpt.encode (.float (.fin q)) d = (.ok (), r) ∧
      Dpt.encode (.float (.fin q')) d' = (.ok (), r') ∧ r.decode = .ok (.fin x) ∧ r'.decode = .ok (.fin x') ∧ x' < x := by
  replace h := kind_float16.1 h
  replace h' := kind_float16.1 h'
  refine ⟨by norm_num at *; linarith, ?_⟩
  have habs : |q| = -q := abs_of_neg (by linarith)
  obtain ⟨r, x, h1, h2, -, h4, h5, -⟩ := c20_partial d (kind_float16.2 h) q (by rw [habs]; norm_num; linarith) (.inr hq1)
  obtain ⟨r', x', k1, k2, k3⟩ := c20_refuted d' (kind_float16.2 h') q' hq' hq1'
  refine ⟨r, r', x, x', h1, k1, h2, k2, ?_⟩
  have := h4 (by linarith)
  rw [abs_of_neg this, habs] at h5
  norm_num at h5
  linarith

/-- 21.7 and 21.71 to different datapoints. -/
example : ∃ (r r' : Dpt) (x x' : ℚ), Dpt.encode (.float (.fin (217 / 10))) ⟨.valueTemp, 0⟩ = (.ok (), r) ∧
    Dpt.encode (.float (.fin (2171 / 100))) ⟨.valueTemp, 0xFFFF⟩ = (.ok (), r') ∧
    r.decode = .ok (.fin x) ∧ r'.decode = .ok (.fin x') ∧ x ≤ x' := by
  obtain ⟨r, hr, -⟩ := c21_accepts ⟨.valueTemp, 0⟩ rfl (by unfold Dpt.Wf; decide) (217 / 10) (by rw [abs_of_pos] <;> norm_num)
  obtain ⟨r', hr', -⟩ := c21_accepts ⟨.valueTemp, 0xFFFF⟩ rfl (by unfold Dpt.Wf; decide) (2171 / 100) (by rw [abs_of_pos] <;> norm_num)
  obtain ⟨x, x', h1, h2, h3⟩ := c73_encode_partial rfl rfl (by norm_num) hr hr' (.inl (by norm_num)) (.inl (by norm_num))
  exact ⟨r, r', x, x', hr, hr', h1, h2, h3⟩

example : ∃ (r r' : Dpt) (x x' : ℚ), Dpt.encode (.float (.fin (-18))) ⟨.valueTemp, 0⟩ = (.ok (), r) ∧
    Dpt.encode (.float (.fin (-1 / 512))) ⟨.valueTemp, 0⟩ = (.ok (), r') ∧
    r.decode = .ok (.fin x) ∧ r'.decode = .ok (.fin x') ∧ x' < x :=
  (c73_refuted ⟨.valueTemp, 0⟩ ⟨.valueTemp, 0⟩ rfl rfl (by norm_num) (by norm_num) (by norm_num) (by norm_num)).2

/-! ## The 4 octet float -/

/-- The smallest number that overflows a binary32: half a unit above the greatest one. -/
def Spec.overflow32 : ℚ := 2 ^ 128 - 2 ^ 103

theorem ulpExp_top {q : ℚ} (h1 : (2 : ℚ) ^ (127 : ℕ) ≤ q) (h2 : q < (2 : ℚ) ^ (128 : ℕ)) : ulpExp 24 (-149) q = 104 := by
  have hpos : 0 < q := lt_of_lt_of_le (by positivity) h1
  have a1 : (127 : Int) ≤ Int.log 2 q := (Int.zpow_le_iff_le_log (by norm_num) hpos).1 (by exact_mod_cast h1)
  have a2 : Int.log 2 q < 128 := (Int.lt_zpow_iff_log_lt (by norm_num) hpos).1 (by exact_mod_cast h2)
  unfold ulpExp
  rw [abs_of_pos hpos]
  have : Int.log 2 q = 127 := by omega
  rw [this]
  norm_num

theorem round32_overflow (q : ℚ) : (2 : ℚ) ^ (128 : ℕ) ≤ |roundBin 24 (-149) q| ↔ Spec.overflow32 ≤ |q| := by
  rw [roundBin_abs]
  generalize hx : |q| = x
  have hx0 : 0 ≤ x := hx ▸ abs_nonneg q
  clear hx
  constructor
  · intro h
    by_contra hc
    push Not at hc
    unfold Spec.overflow32 at hc
    by_cases hs : x < (2 : ℚ) ^ (127 : ℕ)
    · have h1 := roundBin_mono (p := 24) (emin := -149) (by norm_num) (le_of_lt hs)
      have h2 := roundBin_exact (p := 24) (emin := -149) 1 127 (by norm_num) (by norm_num) (by norm_num)
      rw [Int.cast_one, one_mul] at h2
      have e : ((2 : ℚ) ^ (127 : Int)) = (2 : ℚ) ^ (127 : ℕ) := by norm_cast
      rw [e] at h2
      rw [h2] at h1
      have := le_trans h h1
      norm_num at this
    · push Not at hs
      have hne : x ≠ 0 := by
        rintro rfl
        norm_num at hs
      rw [roundBin_of_ne hne, ulpExp_top hs (lt_trans hc (by norm_num))] at h
      have hp : (2 : ℚ) ^ (104 : Int) = (2 : ℚ) ^ (104 : ℕ) := by norm_cast
      rw [hp] at h
      have hy : x / (2 : ℚ) ^ (104 : ℕ) < 2 ^ 24 - 1 / 2 := by
        rw [div_lt_iff₀ (by positivity)]
        norm_num at hc ⊢
        exact hc
      generalize x / (2 : ℚ) ^ (104 : ℕ) = y at hy h
      have hr : rhe y ≤ 2 ^ 24 - 1 := by
        have hf : (⌊y⌋ : ℚ) ≤ y := Int.floor_le y
        rcases rhe_cases y with ⟨e, -⟩ | ⟨e, h'⟩
        · rw [e]
          have : (⌊y⌋ : ℚ) < 2 ^ 24 := by linarith
          have : ⌊y⌋ < 2 ^ 24 := by exact_mod_cast this
          omega
        · rw [e]
          have : (⌊y⌋ : ℚ) < 2 ^ 24 - 1 := by linarith
          have : ⌊y⌋ < 2 ^ 24 - 1 := by exact_mod_cast this
          omega
      have hr' : ((rhe y : Int) : ℚ) ≤ 2 ^ 24 - 1 := by exact_mod_cast hr
      have := mul_le_mul_of_nonneg_right hr' (show (0 : ℚ) ≤ 2 ^ (104 : ℕ) by positivity)
      have := le_trans h this
      norm_num at this
  · intro h
    have h1 := roundBin_mono (p := 24) (emin := -149) (by norm_num) h
    refine le_trans (le_of_eq ?_) h1
    rw [roundBin_of_ne (by unfold Spec.overflow32; norm_num),
      ulpExp_top (by unfold Spec.overflow32; norm_num) (by unfold Spec.overflow32; norm_num)]
    have hp : (2 : ℚ) ^ (104 : Int) = (2 : ℚ) ^ (104 : ℕ) := by norm_cast
    have hq : Spec.overflow32 / (2 : ℚ) ^ (104 : Int) = 33554431 / 2 := by
      rw [hp]; unfold Spec.overflow32; norm_num
    have hr : rhe (33554431 / 2) = 16777216 := by
      have hf : ⌊(33554431 / 2 : ℚ)⌋ = 16777215 := by
        rw [Int.floor_eq_iff]; norm_num
      unfold rhe
      rw [hf]
      norm_num
    rw [hq, hr, hp]
    norm_num

/-- A number overflows exactly from half a unit above the greatest binary32 number on; it is then stored as an
infinity of its sign, and encoding does not raise. -/
theorem encode32_overflow (d : Dpt) (h : Spec.isFloat32 d.cls = true) (q : ℚ) :
    ∃ r, Dpt.encode (.float (.fin q)) d = (.ok (), r) ∧ r.cls = d.cls ∧
      (Spec.overflow32 ≤ |q| → r.decode = .ok (.inf (decide (q < 0)))) ∧
      (|q| < Spec.overflow32 → r.decode =
        .ok (if roundBin 24 (-149) q = 0 ∧ q < 0 then .negZero else .fin (roundBin 24 (-149) q))) := by
  by_cases hq : Spec.overflow32 ≤ |q|
  · replace h := kind_float32.1 h
    refine ⟨⟨d.cls, encode32 (.fin q)⟩, ?_, rfl, fun _ => ?_, fun hc => absurd hq (not_le.2 hc)⟩
    · unfold Dpt.encode
      rw [h]
      simp only [Py.bind, Py.lift, Dpt.toFloat, Dpt.onRaw, Py.modify]
    · unfold Dpt.decode
      simp only [h]
      unfold encode32
      simp only
      rw [if_pos ((round32_overflow q).2 hq)]
      by_cases hn : q < 0
      · rw [if_pos hn, decide_eq_true hn]
        decide +kernel
      · rw [if_neg hn, decide_eq_false hn]
        decide +kernel
  · have hr : |roundBin 24 (-149) q| < (2 : ℚ) ^ (128 : ℕ) := by
      rw [← not_le, round32_overflow]
      exact hq
    obtain ⟨r, f, h1, -, h3, h4, h5⟩ := encode32_nearest d h q hr
    refine ⟨r, h1, h3, fun hc => absurd hc hq, fun _ => ?_⟩
    rw [h4, h5]

/-- C22: infinities, the negative zero and not-a-number are stored as such. -/
theorem c22_special (d : Dpt) (h : Spec.isFloat32 d.cls = true) (f : PyFloat) (hf : ∀ q, f ≠ .fin q) :
    ∃ r, Dpt.encode (.float f) d = (.ok (), r) ∧ r.cls = d.cls ∧ r.decode = .ok f := by
  replace h := kind_float32.1 h
  refine ⟨⟨d.cls, encode32 f⟩, ?_, rfl, ?_⟩
  · unfold Dpt.encode
    rw [h]
    simp only [Py.bind, Py.lift, Dpt.toFloat, Dpt.onRaw, Py.modify]
  · unfold Dpt.decode
    simp only [h]
    cases f with
    | fin q => exact absurd rfl (hf q)
    | negZero => decide +kernel
    | nan => decide +kernel
    | inf n => cases n <;> decide +kernel

example : ∃ r, Dpt.encode (.float (.fin (-(10 ^ 39)))) ⟨.valuePower, 7⟩ = (.ok (), r) ∧ r.cls = .valuePower ∧
    r.decode = .ok (.inf true) := by
  obtain ⟨r, h1, h2, h3, -⟩ := encode32_overflow ⟨.valuePower, 7⟩ rfl (-(10 ^ 39))
  refine ⟨r, h1, h2, ?_⟩
  rw [h3 (by unfold Spec.overflow32; rw [abs_neg, abs_of_pos (by norm_num)]; norm_num)]
  norm_num
example : ∃ r, Dpt.encode (.float .negZero) ⟨.float32, 7⟩ = (.ok (), r) ∧ r.cls = .float32 ∧
    r.decode = .ok .negZero := c22_special ⟨.float32, 7⟩ rfl .negZero (by simp)

/-- C73 for the 4 octet float: of two numbers that do not overflow, the smaller one is not stored as the greater one. -/
theorem c73_float32 (d d' : Dpt) (h : Spec.isFloat32 d.cls = true) (h' : Spec.isFloat32 d'.cls = true) {q q' : ℚ} (hle : q ≤ q')
    (hq : |q| < Spec.overflow32) (hq' : |q'| < Spec.overflow32) :
    ∃ (r r' : Dpt) (f f' : PyFloat) (x x' : ℚ), Dpt.encode (.float (.fin q)) d = (.ok (), r) ∧
      Dpt.encode (.float (.fin q')) d' = (.ok (), r') ∧ r.decode = .ok f ∧ r'.decode = .ok f' ∧
      Spec.finite f = some x ∧ Spec.finite f' = some x' ∧ x ≤ x' := by
  replace h := kind_float32.1 h
  replace h' := kind_float32.1 h'
  have small : ∀ {q : ℚ}, |q| < Spec.overflow32 → |roundBin 24 (-149) q| < (2 : ℚ) ^ (128 : ℕ) := by
    intro q hq
    rw [← not_le, round32_overflow]
    exact not_le.2 hq
  have fin : ∀ {f : PyFloat} {q : ℚ},
      (f = if roundBin 24 (-149) q = 0 ∧ q < 0 then .negZero else .fin (roundBin 24 (-149) q)) →
      Spec.finite f = some (roundBin 24 (-149) q) := by
    rintro f q rfl
    split_ifs with h0
    · rw [h0.1]
      rfl
    · rfl
  obtain ⟨r, f, h1, -, -, h2, h3⟩ := encode32_nearest d (kind_float32.2 h) q (small hq)
  obtain ⟨r', f', k1, -, -, k2, k3⟩ := encode32_nearest d' (kind_float32.2 h') q' (small hq')
  exact ⟨r, r', f, f', _, _, h1, k1, h2, k2, fin h3, fin k3, roundBin_mono (by norm_num) hle⟩

example : ∃ (r r' : Dpt) (f f' : PyFloat) (x x' : ℚ), Dpt.encode (.float (.fin (-1 / 3))) ⟨.float32, 0⟩ = (.ok (), r) ∧
    Dpt.encode (.float (.fin (1 / 7))) ⟨.valuePower, 9⟩ = (.ok (), r') ∧ r.decode = .ok f ∧ r'.decode = .ok f' ∧
    Spec.finite f = some x ∧ Spec.finite f' = some x' ∧ x ≤ x' :=
  c73_float32 ⟨.float32, 0⟩ ⟨.valuePower, 9⟩ rfl rfl (by norm_num)
    (by rw [abs_of_neg (by norm_num)]; norm_num [Spec.overflow32])
    (by rw [abs_of_pos (by norm_num)]; norm_num [Spec.overflow32])

end Knx
