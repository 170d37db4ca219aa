import Verif.Props.Float16
import Verif.Spec.Canonical

/-! # C126: the form of 2-octet floats on the wire -/

namespace Knx
open Spec

/-- The sign, the magnitude and the exponent make a raw value. -/
theorem raw_ext {a b : Nat} (ha : a < 2 ^ 16) (hb : b < 2 ^ 16) (h1 : neg16 a = neg16 b) (h2 : Spec.exponent16 a = Spec.exponent16 b)
    (h3 : mag16 a = mag16 b) : a = b := by
  unfold neg16 at h1
  unfold Spec.exponent16 at h2
  unfold mag16 Spec.mantissa16 at h3
  have h1' : a / 2 ^ 15 % 2 = 1 ↔ b / 2 ^ 15 % 2 = 1 := by
    rw [← beq_iff_eq, h1, beq_iff_eq]
  by_cases h : a / 2 ^ 15 % 2 = 1
  · rw [if_pos h, if_pos (h1'.1 h)] at h3
    have := h1'.1 h
    omega
  · rw [if_neg h, if_neg (fun hc => h (h1'.2 hc))] at h3
    have : ¬ b / 2 ^ 15 % 2 = 1 := fun hc => h (h1'.2 hc)
    omega

/-- C126: whatever is written, as an int or as a float, has the least exponent. -/
theorem c126_form (d : Dpt) (h : Spec.isFloat16 d.cls = true) (v : PyVal) {r : Dpt} (he : Dpt.encode v d = (.ok (), r)) :
    LeastExponent r.raw := by
  replace h := kind_float16.1 h
  unfold Dpt.encode at he
  rw [h] at he
  simp only [Py.bind, Py.lift, Dpt.onRaw] at he
  cases hv : Dpt.toFloat v with
  | error e => rw [hv] at he; cases he
  | ok f =>
  rw [hv] at he
  simp only at he
  cases hm : roundMantissa (divC001 f) with
  | error e =>
    have : encode16Float f d.raw = (.error e, d.raw) := by
      unfold encode16Float
      simp only [Py.bind, Py.lift, hm]
    rw [this] at he
    cases he
  | ok m0 =>
    obtain ⟨k, k1, k2, k3⟩ := encode16_eq hm d.raw
    rw [k3] at he
    by_cases hk : k ≤ 15
    · rw [if_pos hk] at he
      obtain ⟨s1, s2, s3, -⟩ := store16_fields (neg := f.signNeg) k1 hk d.raw
      cases he
      unfold LeastExponent
      rw [s2]
      rcases k2 with rfl | k2
      · exact .inl rfl
      · by_cases h0 : k = 0
        · exact .inl h0
        right
        have hd : m0 / 2 ^ k = m0 / 2 ^ (k - 1) / 2 := by
          rw [Nat.div_div_eq_div_mul, ← pow_succ, Nat.sub_add_cancel (by omega)]
        rw [if_neg (by omega)] at s3
        unfold mag16 at s3
        generalize Spec.mantissa16 (store16 f.signNeg (m0 / 2 ^ k) k d.raw) = M at s3 ⊢
        rw [Int.abs_eq_natAbs]
        omega
    · rw [if_neg hk] at he
      cases he

/-- 83 is 2075 hundredths times 4, too many for the exponent 2. -/
example : ∃ r, Dpt.encode (.float (.fin 83)) ⟨.valueTemp, 0⟩ = (.ok (), r) ∧ LeastExponent r.raw := by
  obtain ⟨k, hk, -, -, h⟩ := encode16_ok (q := 83) (by norm_num) 0
  have he : Dpt.encode (.float (.fin 83)) ⟨.valueTemp, 0⟩ = (.ok (), ⟨.valueTemp, store16 (decide ((83 : ℚ) < 0)) (mantissa0 83 / 2 ^ k) k 0⟩) := by
    unfold Dpt.encode
    simp only [DptClass.kind, Py.bind, Py.lift, Dpt.toFloat, Dpt.onRaw, h]
  exact ⟨_, he, c126_form _ rfl _ he⟩

/-- C126: reading a raw value and writing it restores the octets exactly if the exponent is the least. -/
theorem c126_restored (d d' : Dpt) (h : Spec.isFloat16 d.cls = true) (h' : Spec.isFloat16 d'.cls = true) (hw : d.Wf) (hw' : d'.Wf)
    (hne : d.raw ≠ 0xF800) :
    ∃ (f : PyFloat) (r : Dpt), d.decode = .ok f ∧ Dpt.encode (.float f) d' = (.ok (), r) ∧
      (r.raw = d.raw ↔ LeastExponent d.raw ∧ Spec.mantissa16 d.raw ≠ -2048) := by
  obtain ⟨f, r, s1, s2, s3, -⟩ := c19_stable d d' h h' hw hne
  refine ⟨f, r, s1, s2, ?_⟩
  have hform := c126_form d' h' (.float f) s2
  have hraw : ∀ x : Dpt, Spec.isFloat16 x.cls = true → x.Wf → x.raw < 2 ^ 16 := by
    intro x hx hxw
    have ho : Spec.octets x.cls = 2 := by
      revert hx
      cases x.cls <;> simp [Spec.isFloat16, Spec.octets]
    unfold Dpt.Wf at hxw
    rw [ho] at hxw
    omega
  have hr := hraw d h hw
  have hr' := hraw d' h' hw'
  replace h := kind_float16.1 h
  replace h' := kind_float16.1 h'
  set m := mag16 d.raw with hmdef
  set e := Spec.exponent16 d.raw with hedef
  have hm : m ≤ 2048 := mag16_le d.raw
  have hE : e ≤ 15 := by rw [hedef]; unfold Spec.exponent16; omega
  have hdec : decode16 d.raw = .fin ((if neg16 d.raw then -prod m else prod m) * 2 ^ e) := decode16_eq d.raw
  have hf : f = .fin ((if neg16 d.raw then -prod m else prod m) * 2 ^ e) := by
    unfold Dpt.decode at s1
    rw [h, hdec] at s1
    cases s1
    rfl
  have hsign : f.signNeg = neg16 d.raw := by
    rw [hf, signNeg_fin]
    cases hn : neg16 d.raw with
    | false =>
      simp only [Bool.false_eq_true, if_false, decide_eq_false_iff_not, not_lt]
      exact mul_nonneg (prod_nonneg m) (by positivity)
    | true =>
      simp only [if_true, decide_eq_true_eq]
      have := prod_pos (mag16_pos hn)
      have h2 : (0 : ℚ) < 2 ^ e := by positivity
      nlinarith
  -- what is written
  have hm0 : roundMantissa (divC001 f) = .ok (m * 2 ^ e) := by
    have hle : |(if neg16 d.raw then -prod m else prod m) * 2 ^ e| ≤ 10 ^ 6 := by
      have : |(if neg16 d.raw then -prod m else prod m) * 2 ^ e| = prod m * 2 ^ e := by
        cases neg16 d.raw <;> simp [abs_mul, abs_of_nonneg (prod_nonneg m)]
      rw [this]
      calc prod m * 2 ^ e ≤ 21 * 2 ^ 15 :=
            mul_le_mul (prod_le hm) (pow_le_pow_right₀ (by norm_num) hE) (by positivity) (by norm_num)
        _ ≤ 10 ^ 6 := by norm_num
    obtain ⟨m0, a1, a2⟩ := roundMantissa_div (le_trans (scaled16_bounds hle).2 (by norm_num))
    rw [hf, a1, a2]
    exact congrArg _ (mantissa0_decoded hm hE (neg16 d.raw))
  obtain ⟨k, k1, k2, k3⟩ := encode16_eq hm0 d'.raw
  have hk : k ≤ 15 := by
    by_contra hc
    unfold Dpt.encode at s2
    rw [h'] at s2
    simp only [Py.bind, Py.lift, Dpt.toFloat, Dpt.onRaw, k3, if_neg hc] at s2
    cases s2
  rw [if_pos hk, hsign] at k3
  have hrr : r.raw = store16 (neg16 d.raw) (m * 2 ^ e / 2 ^ k) k d'.raw := by
    unfold Dpt.encode at s2
    rw [h'] at s2
    simp only [Py.bind, Py.lift, Dpt.toFloat, Dpt.onRaw, k3] at s2
    cases s2
    rfl
  obtain ⟨t1, t2, t3, t4⟩ := store16_fields (neg := neg16 d.raw) k1 hk d'.raw
  have hneg : ∀ raw, Spec.mantissa16 raw = -2048 ↔ mag16 raw = 2048 := by
    intro raw
    unfold mag16 Spec.mantissa16
    split_ifs <;> omega
  constructor
  · intro heq
    rw [heq] at hform
    refine ⟨hform, fun hc => ?_⟩
    rw [hneg, ← hmdef] at hc
    have hz : Spec.exponent16 r.raw = k := by rw [hrr, t2]
    rw [heq, ← hedef] at hz
    rw [← hz, Nat.mul_div_cancel _ (Nat.two_pow_pos e)] at k1
    omega
  · rintro ⟨hl, hM⟩
    have hM' : m ≤ 2047 := by
      have : m ≠ 2048 := fun hc => hM ((hneg _).2 hc)
      omega
    have hl' : e = 0 ∨ 1024 ≤ m := by
      rcases hl with hl | ⟨hl, -⟩
      · exact .inl hl
      · right
        rw [hmdef]
        unfold mag16
        rw [Int.abs_eq_natAbs] at hl
        omega
    have hke : k = e := by
      rcases Nat.lt_trichotomy k e with hlt | heq | hgt
      · exfalso
        have hx : m * 2 ^ e / 2 ^ k = m * 2 ^ (e - k) := by
          rw [show 2 ^ e = 2 ^ (e - k) * 2 ^ k by rw [← pow_add, Nat.sub_add_cancel hlt.le], ← mul_assoc,
            Nat.mul_div_cancel _ (Nat.two_pow_pos k)]
        have hy : 2 ^ 1 ≤ 2 ^ (e - k) := Nat.pow_le_pow_right (by norm_num) (by omega)
        have hz : m * 2 ^ 1 ≤ m * 2 ^ (e - k) := Nat.mul_le_mul_left m hy
        rw [hx] at k1
        omega
      · exact heq
      · exfalso
        have h1 : m * 2 ^ e / 2 ^ (k - 1) ≤ m * 2 ^ e / 2 ^ e :=
          Nat.div_le_div_left (Nat.pow_le_pow_right (by norm_num) (by omega)) (Nat.two_pow_pos e)
        rw [Nat.mul_div_cancel _ (Nat.two_pow_pos e)] at h1
        omega
    rw [hke, Nat.mul_div_cancel _ (Nat.two_pow_pos e)] at hrr t1 t2 t3 t4
    rw [hrr]
    apply raw_ext (t4 hr') hr t1 t2
    rw [t3, if_neg]
    rintro ⟨hn, h0⟩
    have := mag16_pos hn
    omega

/-- 0x0C1A, which is 1050 hundredths times 2, is restored; 0x1A0D, which is 525 times 8, is not. -/
example : (∃ f r, (⟨.valueTemp, 0x0C1A⟩ : Dpt).decode = .ok f ∧ Dpt.encode (.float f) ⟨.valueTemp, 0⟩ = (.ok (), r) ∧ r.raw = 0x0C1A) ∧
    ∃ f r, (⟨.valueTemp, 0x1A0D⟩ : Dpt).decode = .ok f ∧ Dpt.encode (.float f) ⟨.valueTemp, 0⟩ = (.ok (), r) ∧ r.raw ≠ 0x1A0D := by
  constructor
  · obtain ⟨f, r, h1, h2, h3⟩ := c126_restored ⟨.valueTemp, 0x0C1A⟩ ⟨.valueTemp, 0⟩ rfl rfl (by unfold Dpt.Wf; decide) (by unfold Dpt.Wf; decide)
      (by decide)
    exact ⟨f, r, h1, h2, h3.2 (by unfold LeastExponent; decide)⟩
  · obtain ⟨f, r, h1, h2, h3⟩ := c126_restored ⟨.valueTemp, 0x1A0D⟩ ⟨.valueTemp, 0⟩ rfl rfl (by unfold Dpt.Wf; decide) (by unfold Dpt.Wf; decide)
      (by decide)
    exact ⟨f, r, h1, h2, fun hc => absurd (h3.1 hc) (by unfold LeastExponent; decide)⟩

/-- What is written fits its octets. -/
theorem encode_fits {d : Dpt} (h : Spec.isFloat16 d.cls = true) (hw : d.Wf) {v : PyVal} {r : Dpt} (he : Dpt.encode v d = (.ok (), r)) :
    r.cls = d.cls ∧ r.Wf := by
  have ho : Spec.octets d.cls = 2 := by
    revert h
    cases d.cls <;> simp [Spec.isFloat16, Spec.octets]
  have hr : d.raw < 2 ^ 16 := by
    unfold Dpt.Wf at hw
    rw [ho] at hw
    omega
  replace h := kind_float16.1 h
  unfold Dpt.encode at he
  rw [h] at he
  simp only [Py.bind, Py.lift, Dpt.onRaw] at he
  cases hv : Dpt.toFloat v with
  | error e => rw [hv] at he; cases he
  | ok f =>
  rw [hv] at he
  simp only at he
  cases hm : roundMantissa (divC001 f) with
  | error e =>
    have : encode16Float f d.raw = (.error e, d.raw) := by
      unfold encode16Float
      simp only [Py.bind, Py.lift, hm]
    rw [this] at he
    cases he
  | ok m0 =>
    obtain ⟨k, k1, k2, k3⟩ := encode16_eq hm d.raw
    rw [k3] at he
    by_cases hk : k ≤ 15
    · rw [if_pos hk] at he
      obtain ⟨-, -, -, s4⟩ := store16_fields (neg := f.signNeg) k1 hk d.raw
      cases he
      refine ⟨rfl, ?_⟩
      have := s4 hr
      unfold Dpt.Wf
      rw [ho]
      simp only
      omega
    · rw [if_neg hk] at he
      cases he

/-- C126: what was written, and has not the mantissa -2048, is read and written again without a change. -/
theorem c126_again (d d' : Dpt) (h : Spec.isFloat16 d.cls = true) (h' : Spec.isFloat16 d'.cls = true) (hw : d.Wf) (hw' : d'.Wf)
    (v : PyVal) {r : Dpt} (he : Dpt.encode v d = (.ok (), r)) (hM : Spec.mantissa16 r.raw ≠ -2048) :
    ∃ (f : PyFloat) (r' : Dpt), r.decode = .ok f ∧ Dpt.encode (.float f) d' = (.ok (), r') ∧ r'.raw = r.raw := by
  obtain ⟨hc, hr⟩ := encode_fits h hw he
  obtain ⟨f, r', s1, s2, s3⟩ := c126_restored r d' (by rw [hc]; exact h) h' hr hw' (fun hF => hM (by rw [hF]; decide))
  exact ⟨f, r', s1, s2, s3.2 ⟨c126_form d h v he, hM⟩⟩

/-- 83 is written as 82.96 and stays so. -/
example : ∃ r f r', Dpt.encode (.float (.fin 83)) ⟨.valueTemp, 0⟩ = (.ok (), r) ∧ r.decode = .ok f ∧
    Dpt.encode (.float f) ⟨.valueTemp, 0xFFFF⟩ = (.ok (), r') ∧ r'.raw = r.raw := by
  obtain ⟨k, hk, k1, -, h⟩ := encode16_ok (q := 83) (by norm_num) 0
  have he : Dpt.encode (.float (.fin 83)) ⟨.valueTemp, 0⟩ = (.ok (), ⟨.valueTemp, store16 (decide ((83 : ℚ) < 0)) (mantissa0 83 / 2 ^ k) k 0⟩) := by
    unfold Dpt.encode
    simp only [DptClass.kind, Py.bind, Py.lift, Dpt.toFloat, Dpt.onRaw, h]
  obtain ⟨f, r', h1, h2, h3⟩ := c126_again ⟨.valueTemp, 0⟩ ⟨.valueTemp, 0xFFFF⟩ rfl rfl (by unfold Dpt.Wf; decide) (by unfold Dpt.Wf; decide) _ he
    (by
      obtain ⟨s1, -, -, -⟩ := store16_fields (neg := decide ((83 : ℚ) < 0)) k1 hk 0
      intro hc
      rw [show decide ((83 : ℚ) < 0) = false by norm_num] at s1 hc
      unfold neg16 at s1
      unfold Spec.mantissa16 at hc
      rw [if_neg (by simpa using s1)] at hc
      omega)
  exact ⟨_, f, r', he, h1, h2, h3⟩

end Knx
