import Verif.Lemmas.Float
import Verif.Lemmas.Bits
import Verif.Spec.Dpt

/-! # C22: the KNX 4-octet float (DPT 14) -/

namespace Knx

/-- Magnitude of the binary32 number with given exponent and mantissa fields. -/
def val32 (e m : Nat) : ℚ :=
  if e = 0 then (m : ℚ) * (2 : ℚ) ^ (-149 : Int) else ((2 ^ 23 + m : Nat) : ℚ) * (2 : ℚ) ^ ((e : Int) - 150)

theorem val32_nonneg (e m : Nat) : 0 ≤ val32 e m := by
  unfold val32
  split_ifs
  · exact mul_nonneg (by positivity) (le_of_lt (two_zpow_pos _))
  · exact mul_nonneg (by positivity) (le_of_lt (two_zpow_pos _))

theorem val32_zero {e m : Nat} : val32 e m = 0 ↔ e = 0 ∧ m = 0 := by
  unfold val32
  have h : (2 : ℚ) ^ (-149 : Int) ≠ 0 := (two_zpow_pos _).ne'
  have h' : (2 : ℚ) ^ ((e : Int) - 150) ≠ 0 := (two_zpow_pos _).ne'
  split_ifs with h0
  · simp [h, h0]
  · simp only [mul_eq_zero, h', or_false, h0, false_and, iff_false]
    positivity

theorem fields32 {s e m : Nat} (hs : s < 2) (he : e < 256) (hm : m < 2 ^ 23) :
    getField 31 1 (s * 2 ^ 31 + (e * 2 ^ 23 + m)) = s ∧ getField 23 8 (s * 2 ^ 31 + (e * 2 ^ 23 + m)) = e ∧
      getField 0 23 (s * 2 ^ 31 + (e * 2 ^ 23 + m)) = m := by
  unfold getField
  refine ⟨?_, ?_, ?_⟩ <;> omega

theorem unfields32 {raw : Nat} (h : raw < 2 ^ 32) :
    raw = getField 31 1 raw * 2 ^ 31 + (getField 23 8 raw * 2 ^ 23 + getField 0 23 raw) := by
  unfold getField
  omega

theorem decode32_eq {s e m : Nat} (hs : s < 2) (he : e < 255) (hm : m < 2 ^ 23) :
    decode32 (s * 2 ^ 31 + (e * 2 ^ 23 + m)) =
      if s = 1 then (if val32 e m = 0 then .negZero else .fin (-val32 e m)) else .fin (val32 e m) := by
  obtain ⟨h1, h2, h3⟩ := fields32 hs (by omega : e < 256) hm
  unfold decode32
  simp only [h1, h2, h3]
  rw [if_neg (by omega)]
  have hb : ((s == 1) = true) ↔ s = 1 := by simp
  simp only [hb]
  rfl

theorem val32_lt {e m : Nat} (he : e < 255) (hm : m < 2 ^ 23) : val32 e m < (2 : ℚ) ^ (128 : ℕ) := by
  have hm' : (m : ℚ) < 2 ^ 23 := by exact_mod_cast hm
  unfold val32
  split_ifs
  · calc (m : ℚ) * (2 : ℚ) ^ (-149 : Int) ≤ 2 ^ 23 * 1 := by
          apply mul_le_mul (le_of_lt hm') _ (le_of_lt (two_zpow_pos _)) (by positivity)
          rw [show (1 : ℚ) = (2 : ℚ) ^ (0 : Int) by norm_num]
          exact zpow_le_zpow_right₀ (by norm_num) (by norm_num)
      _ < (2 : ℚ) ^ (128 : ℕ) := by norm_num
  · push_cast
    calc ((2 : ℚ) ^ 23 + m) * (2 : ℚ) ^ ((e : Int) - 150) < 2 ^ 24 * (2 : ℚ) ^ ((e : Int) - 150) := by
          apply mul_lt_mul_of_pos_right _ (two_zpow_pos _)
          have : (2 : ℚ) ^ 24 = 2 ^ 23 + 2 ^ 23 := by norm_num
          rw [this]
          linarith
      _ ≤ 2 ^ 24 * (2 : ℚ) ^ (104 : Int) := by
          apply mul_le_mul_of_nonneg_left _ (by positivity)
          exact zpow_le_zpow_right₀ (by norm_num) (by omega)
      _ = (2 : ℚ) ^ (128 : ℕ) := by norm_num

theorem val32_round {e m : Nat} (hm : m < 2 ^ 23) : roundBin 24 (-149) (val32 e m) = val32 e m := by
  unfold val32
  split_ifs with h
  · have := roundBin_exact (p := 24) (emin := -149) (m : Int) (-149) (by simp; omega) (by norm_num) (le_refl _)
    simpa using this
  · have := roundBin_exact (p := 24) (emin := -149) ((2 ^ 23 + m : Nat) : Int) ((e : Int) - 150)
      (by rw [abs_of_nonneg (by positivity)]; push_cast; omega) (by norm_num) (by omega)
    exact_mod_cast this

theorem log_two_pow_mul {n : Nat} {k : Nat} (h1 : 2 ^ k ≤ n) (h2 : n < 2 ^ (k + 1)) (e : Int) :
    Int.log 2 ((n : ℚ) * (2 : ℚ) ^ e) = k + e := by
  have hn : (0 : ℚ) < n := by
    have := Nat.two_pow_pos k
    exact_mod_cast (by omega : 0 < n)
  rw [log_mul_pow hn, Int.log_natCast, (Nat.log_eq_iff (Or.inr ⟨by norm_num, by omega⟩)).2 ⟨h1, h2⟩]

theorem mag32_val {e m : Nat} (hm : m < 2 ^ 23) : mag32 (val32 e m) = e * 2 ^ 23 + m := by
  by_cases h0 : val32 e m = 0
  · have := val32_zero.1 h0
    unfold mag32
    rw [if_pos h0, this.1, this.2]
    rfl
  · unfold mag32
    rw [if_neg h0]
    have hpos : 0 < val32 e m := lt_of_le_of_ne (val32_nonneg e m) (Ne.symm h0)
    by_cases he : e = 0
    · have hv : val32 e m = (m : ℚ) * (2 : ℚ) ^ (-149 : Int) := by unfold val32; rw [if_pos he]
      have hlog : Int.log 2 (val32 e m) ≤ -126 := by
        have h1 := zpow_log_le h0
        rw [abs_of_pos hpos] at h1
        by_contra hc
        have h2 : (2 : ℚ) ^ (-126 : Int) ≤ (2 : ℚ) ^ Int.log 2 (val32 e m) :=
          zpow_le_zpow_right₀ (by norm_num) (by omega)
        have h3 : val32 e m < (2 : ℚ) ^ (23 : ℕ) * (2 : ℚ) ^ (-149 : Int) := by
          rw [hv]
          exact mul_lt_mul_of_pos_right (by exact_mod_cast hm) (two_zpow_pos _)
        have h4 : (2 : ℚ) ^ (23 : ℕ) * (2 : ℚ) ^ (-149 : Int) = (2 : ℚ) ^ (-126 : Int) := by
          rw [← zpow_natCast, ← zpow_add₀ (by norm_num)]
          norm_num
        linarith
      have hmax : max (Int.log 2 (val32 e m)) (-126) = -126 := max_eq_right hlog
      have hfl : ⌊val32 e m / (2 : ℚ) ^ ((-126 : Int) - 23)⌋.toNat = m := by
        rw [hv, show ((-126 : Int) - 23) = -149 by norm_num, mul_div_cancel_right₀ _ (two_zpow_pos _).ne']
        simp
      simp only [hmax, hfl]
      rw [if_pos hm, he]
      simp
    · have hv : val32 e m = ((2 ^ 23 + m : Nat) : ℚ) * (2 : ℚ) ^ ((e : Int) - 150) := by unfold val32; rw [if_neg he]
      have hlog : Int.log 2 (val32 e m) = (e : Int) - 127 := by
        rw [hv, log_two_pow_mul (k := 23) (by omega) (by omega)]
        push_cast
        omega
      have hmax : max (Int.log 2 (val32 e m)) (-126) = (e : Int) - 127 := by
        rw [hlog]
        omega
      have hfl : ⌊val32 e m / (2 : ℚ) ^ (((e : Int) - 127) - 23)⌋.toNat = 2 ^ 23 + m := by
        rw [hv, show (((e : Int) - 127) - 23) = (e : Int) - 150 by ring, mul_div_cancel_right₀ _ (two_zpow_pos _).ne']
        rw [Int.floor_natCast]
        rfl
      simp only [hmax, hfl]
      rw [if_neg (by omega)]
      have : ((e : Int) - 127 + 127).toNat = e := by omega
      rw [this]
      omega

/-- Storing a number that is a binary32 number. -/
theorem encode32_val {e m : Nat} (he : e < 255) (hm : m < 2 ^ 23) (neg : Bool) (h : neg = true → val32 e m ≠ 0) :
    encode32 (.fin (if neg then -val32 e m else val32 e m)) = (if neg then 1 else 0) * 2 ^ 31 + (e * 2 ^ 23 + m) := by
  have hn := val32_nonneg e m
  have hlt := val32_lt he hm
  unfold encode32
  cases neg with
  | false =>
    simp only [Bool.false_eq_true, if_false]
    rw [val32_round hm, abs_of_nonneg hn, if_neg (not_le.2 hlt), if_neg (not_lt.2 hn), mag32_val hm]
    omega
  | true =>
    simp only [if_true]
    have hpos : 0 < val32 e m := lt_of_le_of_ne hn (Ne.symm (h rfl))
    rw [roundBin_neg, val32_round hm, abs_neg, abs_of_nonneg hn, if_neg (not_le.2 hlt),
      if_pos (by linarith), mag32_val hm]
    omega

theorem encode32_decode32 {raw : Nat} (h : raw < 2 ^ 32) (hf : getField 23 8 raw ≠ 255 ∨ getField 0 23 raw = 0) :
    encode32 (decode32 raw) = raw := by
  have hs : getField 31 1 raw < 2 := getField_lt 31 1 raw
  have he : getField 23 8 raw < 256 := getField_lt 23 8 raw
  have hm : getField 0 23 raw < 2 ^ 23 := getField_lt 0 23 raw
  have hraw := unfields32 h
  generalize getField 31 1 raw = s at *
  generalize getField 23 8 raw = e at *
  generalize getField 0 23 raw = m at *
  subst hraw
  by_cases h255 : e = 255
  · have hm0 : m = 0 := by
      rcases hf with hf | hf
      · exact absurd h255 hf
      · exact hf
    subst hm0 h255
    have : s = 0 ∨ s = 1 := by omega
    rcases this with rfl | rfl <;> decide
  · rw [decode32_eq hs (by omega) hm]
    have hs' : s = 0 ∨ s = 1 := by omega
    rcases hs' with rfl | rfl
    · rw [if_neg (by omega)]
      have := encode32_val (e := e) (m := m) (by omega) hm false (by simp)
      simpa using this
    · rw [if_pos rfl]
      by_cases hv : val32 e m = 0
      · rw [if_pos hv]
        obtain ⟨rfl, rfl⟩ := val32_zero.1 hv
        rfl
      · rw [if_neg hv]
        have := encode32_val (e := e) (m := m) (by omega) hm true (fun _ => hv)
        simpa using this

theorem kind_float32 {c : DptClass} : Spec.isFloat32 c = true ↔ c.kind = .float32 := by
  cases c <;> simp [Spec.isFloat32, DptClass.kind]

theorem octets_float32 {c : DptClass} (h : c.kind = .float32) : Spec.octets c = 4 := by
  revert h
  cases c <;> simp [DptClass.kind, Spec.octets]

/-- C22: for every raw value but the NaNs, decoding a 4-octet float gives a number which, encoded into any datapoint of
the kind, restores the raw value. -/
theorem c22_roundtrip (d d' : Dpt) (h : Spec.isFloat32 d.cls = true) (h' : Spec.isFloat32 d'.cls = true) (hw : d.Wf)
    (hf : d.raw / 2 ^ 23 % 256 ≠ 255 ∨ d.raw % 2 ^ 23 = 0) :
    ∃ f, d.decode = .ok f ∧ Dpt.encode (.float f) d' = (.ok (), { d' with raw := d.raw }) := by
  replace h := kind_float32.1 h
  replace h' := kind_float32.1 h'
  refine ⟨decode32 d.raw, ?_, ?_⟩
  · unfold Dpt.decode
    rw [h]
  · unfold Dpt.encode
    rw [h']
    simp only [Py.bind, Py.lift, Dpt.toFloat, Dpt.onRaw, Py.modify]
    have hr : d.raw < 2 ^ 32 := by
      unfold Dpt.Wf at hw
      rw [octets_float32 h] at hw
      norm_num at hw ⊢
      exact hw
    rw [encode32_decode32 hr (by simpa [getField] using hf)]

example : ∃ f, (⟨.valuePower, 0xC48AC800⟩ : Dpt).decode = .ok f ∧
    Dpt.encode (.float f) ⟨.float32, 5⟩ = (.ok (), ⟨.float32, 0xC48AC800⟩) :=
  c22_roundtrip ⟨.valuePower, 0xC48AC800⟩ ⟨.float32, 5⟩ rfl rfl (by unfold Dpt.Wf; decide) (Or.inl (by decide))

/-- The fields of a rounded number. -/
theorem round32_val {q : ℚ} (hq : |roundBin 24 (-149) q| < (2 : ℚ) ^ (128 : ℕ)) :
    ∃ e m, e < 255 ∧ m < 2 ^ 23 ∧ |roundBin 24 (-149) q| = val32 e m := by
  by_cases h : q = 0
  · refine ⟨0, 0, by omega, by norm_num, ?_⟩
    rw [h, roundBin_zero]
    simp [val32]
  · set u := ulpExp 24 (-149) q with hu
    have hu0 : -149 ≤ u := le_max_right _ _
    have h2u := two_zpow_pos u
    have hab : |roundBin 24 (-149) q| = rhe (|q| / (2 : ℚ) ^ u) * (2 : ℚ) ^ u := by
      rw [roundBin_abs, roundBin_of_ne (abs_ne_zero.2 h)]
      have : ulpExp 24 (-149) |q| = u := by rw [hu]; unfold ulpExp; rw [abs_abs]
      rw [this]
    have hb : |q| / (2 : ℚ) ^ u ≤ (2 : ℚ) ^ 24 := by
      rw [div_le_iff₀ h2u]
      have h1 := lt_zpow_log q
      have h2 : (2 : ℚ) ^ (Int.log 2 |q| + 1) ≤ (2 : ℚ) ^ (24 + u) :=
        zpow_le_zpow_right₀ (by norm_num) (by rw [hu]; unfold ulpExp; push_cast; omega)
      rw [zpow_add₀ (by norm_num) (24 : Int)] at h2
      have h3 : ((2 : ℚ) ^ (24 : Int)) = 2 ^ 24 := by norm_num
      rw [h3] at h2
      linarith
    have hn1 : rhe (|q| / (2 : ℚ) ^ u) ≤ 2 ^ 24 := by
      have h1 := rhe_mono hb
      have hi := rhe_int (2 ^ 24)
      rw [show (((2 ^ 24 : Int)) : ℚ) = 2 ^ 24 by norm_cast] at hi
      rwa [hi] at h1
    have hn0 : 0 ≤ rhe (|q| / (2 : ℚ) ^ u) := rhe_nonneg (div_nonneg (abs_nonneg _) (le_of_lt h2u))
    have hnorm : u ≠ -149 → 2 ^ 23 ≤ rhe (|q| / (2 : ℚ) ^ u) := by
      intro hne
      have hul : u = Int.log 2 |q| - 23 := by
        rw [hu] at hne ⊢
        unfold ulpExp at *
        push_cast at *
        omega
      have hb2 : (2 : ℚ) ^ 23 ≤ |q| / (2 : ℚ) ^ u := by
        rw [le_div_iff₀ h2u]
        have h1 := zpow_log_le h
        have h3 : (2 : ℚ) ^ 23 * (2 : ℚ) ^ u = (2 : ℚ) ^ Int.log 2 |q| := by
          rw [show Int.log 2 |q| = 23 + u by omega, zpow_add₀ (by norm_num)]
          norm_num
        rw [h3]
        exact h1
      have h1 := rhe_mono hb2
      have hi := rhe_int (2 ^ 23)
      rw [show (((2 ^ 23 : Int)) : ℚ) = 2 ^ 23 by norm_cast] at hi
      rwa [hi] at h1
    rw [hab] at hq ⊢
    obtain ⟨n, hn⟩ := Int.eq_ofNat_of_zero_le hn0
    rw [hn] at hq hn1 hnorm ⊢
    have hcast : (((n : Nat) : Int) : ℚ) = (n : ℚ) := by norm_cast
    rw [hcast] at hq ⊢
    have hn1' : n ≤ 2 ^ 24 := by exact_mod_cast hn1
    rcases Nat.lt_or_ge n (2 ^ 23) with hlt | hge
    · have hu1 : u = -149 := by
        by_contra hc
        have := hnorm hc
        have : 2 ^ 23 ≤ n := by exact_mod_cast this
        omega
      refine ⟨0, n, by omega, hlt, ?_⟩
      unfold val32
      rw [if_pos rfl, hu1]
    · have hbound : u + 23 < 128 := by
        by_contra hc
        have h1 : (2 : ℚ) ^ (128 : ℕ) ≤ (2 : ℚ) ^ 23 * (2 : ℚ) ^ u := by
          rw [← zpow_natCast, ← zpow_natCast, ← zpow_add₀ (by norm_num)]
          exact zpow_le_zpow_right₀ (by norm_num) (by push_cast; omega)
        have h2 : (2 : ℚ) ^ 23 * (2 : ℚ) ^ u ≤ (n : ℚ) * (2 : ℚ) ^ u :=
          mul_le_mul_of_nonneg_right (by exact_mod_cast hge) (le_of_lt h2u)
        exact absurd hq (not_lt.2 (le_trans h1 h2))
      rcases Nat.lt_or_ge n (2 ^ 24) with hlt | hge2
      · obtain ⟨e, he⟩ := Int.eq_ofNat_of_zero_le (by omega : 0 ≤ u + 150)
        refine ⟨e, n - 2 ^ 23, by omega, by omega, ?_⟩
        unfold val32
        rw [if_neg (by omega), show 2 ^ 23 + (n - 2 ^ 23) = n by omega, show (e : Int) - 150 = u by omega]
      · have hn24 : n = 2 ^ 24 := by omega
        have hbound2 : u + 24 < 128 := by
          by_contra hc
          have h1 : (2 : ℚ) ^ (128 : ℕ) ≤ (2 : ℚ) ^ 24 * (2 : ℚ) ^ u := by
            rw [← zpow_natCast, ← zpow_natCast, ← zpow_add₀ (by norm_num)]
            exact zpow_le_zpow_right₀ (by norm_num) (by push_cast; omega)
          rw [hn24] at hq
          push_cast at hq
          exact absurd hq (not_lt.2 h1)
        obtain ⟨e, he⟩ := Int.eq_ofNat_of_zero_le (by omega : 0 ≤ u + 151)
        refine ⟨e, 0, by omega, by norm_num, ?_⟩
        unfold val32
        rw [if_neg (by omega), show (e : Int) - 150 = u + 1 by omega, hn24, zpow_add₀ (by norm_num)]
        push_cast
        ring

theorem encode32_lt (f : PyFloat) : encode32 f < 256 ^ 4 := by
  cases f with
  | nan => decide
  | negZero => decide
  | inf n => cases n <;> decide
  | fin q =>
    unfold encode32
    simp only
    by_cases h : (2 : ℚ) ^ (128 : ℕ) ≤ |roundBin 24 (-149) q|
    · rw [if_pos h]
      split_ifs <;> norm_num
    · rw [if_neg h]
      obtain ⟨e, m, he, hm, hv⟩ := round32_val (not_le.1 h)
      rw [hv, mag32_val hm]
      split_ifs <;> norm_num at hm ⊢ <;> omega

/-- A number that does not overflow a binary32 is stored as the nearest binary32 number (24 digits, none below
2^-149), which decoding gives back. -/
theorem encode32_nearest (d : Dpt) (h : Spec.isFloat32 d.cls = true) (q : ℚ)
    (hq : |roundBin 24 (-149) q| < (2 : ℚ) ^ (128 : ℕ)) :
    ∃ r f, Dpt.encode (.float (.fin q)) d = (.ok (), r) ∧ r.Wf ∧ r.cls = d.cls ∧ r.decode = .ok f ∧
      f = if roundBin 24 (-149) q = 0 ∧ q < 0 then .negZero else .fin (roundBin 24 (-149) q) := by
  replace h := kind_float32.1 h
  refine ⟨⟨d.cls, encode32 (.fin q)⟩, decode32 (encode32 (.fin q)), ?_, ?_, rfl, ?_, ?_⟩
  · unfold Dpt.encode
    rw [h]
    simp only [Py.bind, Py.lift, Dpt.toFloat, Dpt.onRaw, Py.modify]
  · obtain ⟨e, m, he, hm, hv⟩ := round32_val hq
    unfold Dpt.Wf
    simp only
    rw [octets_float32 h]
    unfold encode32
    simp only
    rw [if_neg (not_le.2 hq), hv, mag32_val hm]
    split_ifs <;> norm_num at hm ⊢ <;> omega
  · unfold Dpt.decode
    simp only [h]
  · obtain ⟨e, m, he, hm, hv⟩ := round32_val hq
    unfold encode32
    simp only
    rw [if_neg (not_le.2 hq), hv, mag32_val hm]
    by_cases hneg : q < 0
    · rw [if_pos hneg]
      have := decode32_eq (s := 1) (by norm_num) he hm
      rw [one_mul, if_pos rfl] at this
      rw [this]
      have hle : roundBin 24 (-149) q ≤ 0 := by
        have h1 : 0 ≤ roundBin 24 (-149) (-q) := roundBin_nonneg (by linarith)
        rw [roundBin_neg] at h1
        linarith
      rw [abs_of_nonpos hle] at hv
      by_cases hz : val32 e m = 0
      · rw [if_pos hz, if_pos ⟨by linarith, hneg⟩]
      · rw [if_neg hz, if_neg (fun h => hz (by linarith [h.1]))]
        congr 1
        linarith
    · rw [if_neg hneg]
      have := decode32_eq (s := 0) (by norm_num) he hm
      rw [zero_mul, if_neg (by norm_num)] at this
      rw [this]
      have h1 : 0 ≤ roundBin 24 (-149) q := roundBin_nonneg (not_lt.1 hneg)
      rw [abs_of_nonneg h1] at hv
      rw [if_neg (fun h => hneg h.2), hv]

/-- C22: the stored number is within a relative error of 2^-24 of the given one in the normal range of binary32. -/
theorem c22_error (d : Dpt) (h : Spec.isFloat32 d.cls = true) (q : ℚ) (hlo : (2 : ℚ) ^ (-126 : Int) ≤ |q|)
    (hhi : |q| < (2 : ℚ) ^ (127 : ℕ)) :
    ∃ r x, Dpt.encode (.float (.fin q)) d = (.ok (), r) ∧ r.decode = .ok (.fin x) ∧ |x - q| ≤ |q| / 2 ^ 24 := by
  replace h := kind_float32.1 h
  have hlog := le_log_of_le hlo
  have herr := roundBin_relerr (p := 24) (emin := -149) (q := q) (by push_cast; omega)
  have hq0 : 0 < |q| := lt_of_lt_of_le (two_zpow_pos _) hlo
  have hlt : |roundBin 24 (-149) q| < (2 : ℚ) ^ (128 : ℕ) := by
    have h1 := abs_sub_abs_le_abs_sub (roundBin 24 (-149) q) q
    have h2 : |q| / 2 ^ 24 ≤ |q| := div_le_self (abs_nonneg _) (by norm_num)
    norm_num at hhi ⊢
    linarith
  obtain ⟨r, f, h1, -, -, h2, h3⟩ := encode32_nearest d (kind_float32.2 h) q hlt
  by_cases h0 : roundBin 24 (-149) q = 0 ∧ q < 0
  · exfalso
    rw [h0.1, zero_sub, abs_neg] at herr
    norm_num at herr
    linarith
  · rw [if_neg h0] at h3
    exact ⟨r, _, h1, h3 ▸ h2, herr⟩

example : ∃ r x, Dpt.encode (.float (.fin (-1 / 3))) ⟨.float32, 0⟩ = (.ok (), r) ∧ r.decode = .ok (.fin x) ∧
    |x - (-1 / 3)| ≤ 1 / 3 / 2 ^ 24 := by
  have ha : |(-1 / 3 : ℚ)| = 1 / 3 := by rw [abs_of_neg] <;> norm_num
  have := c22_error ⟨.float32, 0⟩ rfl (-1 / 3) (by rw [ha]; norm_num) (by rw [ha]; norm_num)
  rwa [ha] at this
example : |roundBin 24 (-149) 1| < (2 : ℚ) ^ (128 : ℕ) := by
  have := roundBin_exact (p := 24) (emin := -149) 1 0 (by norm_num) (by norm_num) (by norm_num)
  norm_num at this ⊢
  rw [this]
  norm_num

end Knx
