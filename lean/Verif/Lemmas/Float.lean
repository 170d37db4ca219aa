import Verif.Model.Float
import Mathlib.Tactic.Linarith
import Mathlib.Tactic.NormNum
import Mathlib.Tactic.Ring
import Mathlib.Tactic.FieldSimp
import Mathlib.Tactic.Positivity

/-! # Lemmas about binary rounding -/

namespace Knx

theorem rhe_cases (q : ℚ) :
    (rhe q = ⌊q⌋ ∧ q - ⌊q⌋ ≤ 1 / 2) ∨ (rhe q = ⌊q⌋ + 1 ∧ 1 / 2 ≤ q - ⌊q⌋) := by
  unfold rhe
  split_ifs with h1 h2 h3
  · exact Or.inl ⟨rfl, le_of_lt h1⟩
  · exact Or.inr ⟨rfl, le_of_lt h2⟩
  · exact Or.inl ⟨rfl, by linarith⟩
  · exact Or.inr ⟨rfl, by linarith⟩

theorem rhe_err (q : ℚ) : |(rhe q : ℚ) - q| ≤ 1 / 2 := by
  have h0 := Int.floor_le q
  have h1 := Int.lt_floor_add_one q
  rw [abs_le]
  rcases rhe_cases q with ⟨h, h'⟩ | ⟨h, h'⟩ <;> rw [h] <;> push_cast <;> constructor <;> linarith

theorem rhe_int (n : Int) : rhe n = n := by
  unfold rhe
  simp

theorem rhe_neg (q : ℚ) : rhe (-q) = -rhe q := by
  by_cases hi : (⌊q⌋ : ℚ) = q
  · rw [← hi, ← Int.cast_neg, rhe_int, rhe_int]
  · have h0 := lt_of_le_of_ne (Int.floor_le q) hi
    have h1 := Int.lt_floor_add_one q
    have hf : ⌊-q⌋ = -⌊q⌋ - 1 := by
      rw [Int.floor_eq_iff]
      push_cast
      constructor <;> linarith
    unfold rhe
    rw [hf]
    push_cast
    by_cases c1 : q - ⌊q⌋ < 1 / 2
    · have c2 : ¬ (-q - (-(⌊q⌋ : ℚ) - 1) < 1 / 2) := by linarith
      have c3 : (1 / 2 < -q - (-(⌊q⌋ : ℚ) - 1)) := by linarith
      rw [if_neg c2, if_pos c3, if_pos c1]
      omega
    · by_cases c4 : 1 / 2 < q - ⌊q⌋
      · have c2 : (-q - (-(⌊q⌋ : ℚ) - 1) < 1 / 2) := by linarith
        rw [if_pos c2, if_neg c1, if_pos c4]
        omega
      · have c2 : ¬ (-q - (-(⌊q⌋ : ℚ) - 1) < 1 / 2) := by linarith
        have c3 : ¬ (1 / 2 < -q - (-(⌊q⌋ : ℚ) - 1)) := by linarith
        rw [if_neg c2, if_neg c3, if_neg c1, if_neg c4]
        split_ifs <;> omega

theorem rhe_mono {a b : ℚ} (h : a ≤ b) : rhe a ≤ rhe b := by
  have hf : ⌊a⌋ ≤ ⌊b⌋ := Int.floor_le_floor h
  rcases lt_or_eq_of_le hf with hlt | heq
  · rcases rhe_cases a with ⟨h1, -⟩ | ⟨h1, -⟩ <;> rcases rhe_cases b with ⟨h2, -⟩ | ⟨h2, -⟩ <;> omega
  · unfold rhe
    rw [← heq]
    split_ifs with c1 c2 c3 c4 c5 c6 c7 c8 c9 c10 c11 c12 <;> first | omega | (exfalso; linarith)

theorem rhe_nonneg {q : ℚ} (h : 0 ≤ q) : 0 ≤ rhe q := by
  have := rhe_mono h
  have h0 : rhe 0 = 0 := by simpa using rhe_int 0
  omega

theorem rhe_nonpos {q : ℚ} (h : q ≤ 0) : rhe q ≤ 0 := by
  have := rhe_mono h
  have h0 : rhe 0 = 0 := by simpa using rhe_int 0
  omega

theorem rhe_natAbs (q : ℚ) : ((rhe q).natAbs : Int) = rhe |q| := by
  rcases le_total 0 q with h | h
  · have := rhe_nonneg h
    rw [abs_of_nonneg h]
    omega
  · have := rhe_nonpos h
    rw [abs_of_nonpos h, rhe_neg]
    omega

/-- The exponent of the last digit kept by `roundBin`. -/
def ulpExp (p : Nat) (emin : Int) (q : ℚ) : Int := max (Int.log 2 |q| + 1 - p) emin

theorem roundBin_of_ne {p : Nat} {emin : Int} {q : ℚ} (h : q ≠ 0) :
    roundBin p emin q = rhe (q / (2 : ℚ) ^ ulpExp p emin q) * (2 : ℚ) ^ ulpExp p emin q := by
  unfold roundBin
  rw [if_neg h]
  rfl

theorem roundBin_zero (p : Nat) (emin : Int) : roundBin p emin 0 = 0 := by
  unfold roundBin
  rw [if_pos rfl]

theorem two_zpow_pos (e : Int) : (0 : ℚ) < (2 : ℚ) ^ e := zpow_pos (by norm_num) e

theorem roundBin_neg (p : Nat) (emin : Int) (q : ℚ) : roundBin p emin (-q) = -roundBin p emin q := by
  by_cases h : q = 0
  · rw [h, neg_zero, roundBin_zero, neg_zero]
  · have h' : -q ≠ 0 := neg_ne_zero.2 h
    have e : ulpExp p emin (-q) = ulpExp p emin q := by unfold ulpExp; rw [abs_neg]
    rw [roundBin_of_ne h, roundBin_of_ne h', e, neg_div, rhe_neg]
    push_cast
    ring

theorem roundBin_nonneg {p : Nat} {emin : Int} {q : ℚ} (h : 0 ≤ q) : 0 ≤ roundBin p emin q := by
  rcases eq_or_lt_of_le h with h0 | h0
  · rw [← h0, roundBin_zero]
  · rw [roundBin_of_ne (ne_of_gt h0)]
    have := rhe_nonneg (q := q / (2 : ℚ) ^ ulpExp p emin q) (div_nonneg h (le_of_lt (two_zpow_pos _)))
    have h1 : (0 : ℚ) ≤ (rhe (q / (2 : ℚ) ^ ulpExp p emin q) : ℚ) := by exact_mod_cast this
    exact mul_nonneg h1 (le_of_lt (two_zpow_pos _))

theorem roundBin_abs (p : Nat) (emin : Int) (q : ℚ) : |roundBin p emin q| = roundBin p emin |q| := by
  rcases le_total 0 q with h | h
  · rw [abs_of_nonneg h, abs_of_nonneg (roundBin_nonneg h)]
  · rw [abs_of_nonpos h, roundBin_neg, abs_of_nonpos]
    have : 0 ≤ roundBin p emin (-q) := roundBin_nonneg (by linarith)
    rw [roundBin_neg] at this
    linarith

/-- Absolute error of rounding. -/
theorem roundBin_err (p : Nat) (emin : Int) (q : ℚ) :
    |roundBin p emin q - q| ≤ (2 : ℚ) ^ ulpExp p emin q / 2 := by
  by_cases h : q = 0
  · rw [h, roundBin_zero, sub_zero, abs_zero]
    exact le_of_lt (half_pos (two_zpow_pos _))
  · rw [roundBin_of_ne h]
    set u := (2 : ℚ) ^ ulpExp p emin q with hu
    have hpos : 0 < u := two_zpow_pos _
    have e : (rhe (q / u) : ℚ) * u - q = ((rhe (q / u) : ℚ) - q / u) * u := by field_simp
    rw [e, abs_mul, abs_of_pos hpos]
    have := rhe_err (q / u)
    nlinarith

theorem zpow_log_le {q : ℚ} (h : q ≠ 0) : (2 : ℚ) ^ Int.log 2 |q| ≤ |q| := by
  have := Int.zpow_log_le_self (b := 2) (by norm_num) (abs_pos.2 h)
  exact_mod_cast this

theorem lt_zpow_log (q : ℚ) : |q| < (2 : ℚ) ^ (Int.log 2 |q| + 1) := by
  have := Int.lt_zpow_succ_log_self (b := 2) (by norm_num) |q|
  exact_mod_cast this

/-- Relative error of rounding in the normal range. -/
theorem roundBin_relerr {p : Nat} {emin : Int} {q : ℚ} (h : emin ≤ Int.log 2 |q| + 1 - p) :
    |roundBin p emin q - q| ≤ |q| / (2 : ℚ) ^ p := by
  by_cases h0 : q = 0
  · rw [h0, roundBin_zero]
    simp
  · have he : ulpExp p emin q = Int.log 2 |q| + 1 - p := max_eq_left h
    have := roundBin_err p emin q
    rw [he] at this
    refine le_trans this ?_
    have e : (2 : ℚ) ^ (Int.log 2 |q| + 1 - (p : Int)) = (2 : ℚ) ^ Int.log 2 |q| * 2 / (2 : ℚ) ^ p := by
      rw [zpow_sub₀ (by norm_num), zpow_add₀ (by norm_num)]
      simp
    rw [e]
    have hl := zpow_log_le h0
    have hp : (0 : ℚ) < (2 : ℚ) ^ p := by positivity
    rw [div_div, mul_comm ((2 : ℚ) ^ p) 2, ← div_div, mul_div_assoc]
    simp only [ne_eq, OfNat.ofNat_ne_zero, not_false_eq_true, div_self, mul_one]
    exact div_le_div_of_nonneg_right hl (le_of_lt hp)

/-- A number with at most `p` digits that end at or above `2^emin` is not changed by rounding. -/
theorem roundBin_exact {p : Nat} {emin : Int} (n : Int) (e : Int) (hn : |n| ≤ 2 ^ p) (hp : 1 ≤ p) (he : emin ≤ e) :
    roundBin p emin ((n : ℚ) * (2 : ℚ) ^ e) = (n : ℚ) * (2 : ℚ) ^ e := by
  by_cases h0 : n = 0
  · rw [h0]; simp [roundBin_zero]
  set q := (n : ℚ) * (2 : ℚ) ^ e with hq
  have hq0 : q ≠ 0 := mul_ne_zero (by exact_mod_cast h0) (ne_of_gt (two_zpow_pos e))
  -- q is a multiple of the last digit kept
  have key : ∃ k : Int, q / (2 : ℚ) ^ ulpExp p emin q = k := by
    by_cases hle : ulpExp p emin q ≤ e
    · obtain ⟨d, hd⟩ := Int.le.dest hle
      refine ⟨n * 2 ^ d, ?_⟩
      have hu := ne_of_gt (two_zpow_pos (ulpExp p emin q))
      generalize ulpExp p emin q = u at hd hu
      rw [div_eq_iff hu, hq, ← hd, zpow_add₀ (by norm_num), zpow_natCast]
      push_cast
      ring
    · -- then |n| = 2^p
      push Not at hle
      have hlog : Int.log 2 |q| + 1 - p = ulpExp p emin q := by
        unfold ulpExp at hle ⊢
        rw [max_eq_left]
        by_contra hc
        push Not at hc
        rw [max_eq_right (le_of_lt hc)] at hle
        omega
      have h1 := zpow_log_le hq0
      have habs : |q| = (|n| : ℤ) * (2 : ℚ) ^ e := by
        rw [hq, abs_mul, abs_of_pos (two_zpow_pos e)]
        push_cast
        rfl
      have hn' : ((|n| : ℤ) : ℚ) ≤ (2 : ℚ) ^ p := by exact_mod_cast hn
      have h2 : |q| ≤ (2 : ℚ) ^ ((p : Int) + e) := by
        rw [habs, zpow_add₀ (by norm_num), zpow_natCast]
        exact mul_le_mul_of_nonneg_right hn' (le_of_lt (two_zpow_pos e))
      have h3 : (2 : ℚ) ^ ((p : Int) + e) ≤ (2 : ℚ) ^ Int.log 2 |q| :=
        zpow_le_zpow_right₀ (by norm_num) (by omega)
      have h4 : |q| = (2 : ℚ) ^ Int.log 2 |q| := le_antisymm (le_trans h2 h3) h1
      have hl : ulpExp p emin q ≤ Int.log 2 |q| := by omega
      obtain ⟨d, hd⟩ := Int.le.dest hl
      have h5 : |q| / (2 : ℚ) ^ ulpExp p emin q = ((2 ^ d : ℤ) : ℚ) := by
        rw [h4, ← hd, zpow_add₀ (by norm_num), zpow_natCast]
        have := ne_of_gt (two_zpow_pos (ulpExp p emin q))
        push_cast
        field_simp
      rcases abs_choice q with hc | hc
      · exact ⟨2 ^ d, by rw [← h5, hc]⟩
      · refine ⟨-2 ^ d, ?_⟩
        push_cast at h5 ⊢
        rw [← h5, hc]
        ring
  obtain ⟨k, hk⟩ := key
  rw [roundBin_of_ne hq0, hk, rhe_int, ← hk]
  have := ne_of_gt (two_zpow_pos (ulpExp p emin q))
  field_simp

/-- A rounded number has at most `p` digits. -/
theorem roundBin_repr (p : Nat) (emin : Int) (hp : 1 ≤ p) (q : ℚ) :
    ∃ n e : Int, |n| ≤ 2 ^ p ∧ emin ≤ e ∧ roundBin p emin q = (n : ℚ) * (2 : ℚ) ^ e := by
  by_cases h : q = 0
  · exact ⟨0, emin, by simp, le_refl _, by rw [h, roundBin_zero]; simp⟩
  · refine ⟨rhe (q / (2 : ℚ) ^ ulpExp p emin q), ulpExp p emin q, ?_, le_max_right _ _, roundBin_of_ne h⟩
    have hb : |q| / (2 : ℚ) ^ ulpExp p emin q ≤ (2 : ℚ) ^ p := by
      rw [div_le_iff₀ (two_zpow_pos _)]
      have h1 := lt_zpow_log q
      have h2 : (2 : ℚ) ^ (Int.log 2 |q| + 1) ≤ (2 : ℚ) ^ ((p : Int) + ulpExp p emin q) :=
        zpow_le_zpow_right₀ (by norm_num) (by unfold ulpExp; omega)
      rw [zpow_add₀ (by norm_num) (p : Int), zpow_natCast] at h2
      linarith
    have h3 : (rhe (|q| / (2 : ℚ) ^ ulpExp p emin q)) ≤ 2 ^ p := by
      have := rhe_mono hb
      have hi := rhe_int (2 ^ p)
      push_cast at hi
      rw [hi] at this
      exact this
    have h4 := rhe_natAbs (q / (2 : ℚ) ^ ulpExp p emin q)
    rw [abs_div, abs_of_pos (two_zpow_pos _)] at h4
    rw [← h4] at h3
    rwa [Int.abs_eq_natAbs]

/-- Rounding an already rounded number that was scaled up does nothing. -/
theorem roundBin_scaled {p : Nat} {emin : Int} (hp : 1 ≤ p) (q : ℚ) (k : Nat) :
    roundBin p emin (roundBin p emin q * 2 ^ k) = roundBin p emin q * 2 ^ k := by
  obtain ⟨n, e, h1, h2, h3⟩ := roundBin_repr p emin hp q
  have e' : roundBin p emin q * 2 ^ k = (n : ℚ) * (2 : ℚ) ^ (e + k) := by
    rw [h3, zpow_add₀ (by norm_num), zpow_natCast]
    ring
  rw [e']
  exact roundBin_exact n (e + k) h1 hp (by omega)

theorem log_mul_pow {q : ℚ} (h : 0 < q) (k : Int) : Int.log 2 (q * (2 : ℚ) ^ k) = Int.log 2 q + k := by
  have hpos : 0 < q * (2 : ℚ) ^ k := mul_pos h (two_zpow_pos k)
  have hq := ne_of_gt h
  have h1 := zpow_log_le hq
  have h2 := lt_zpow_log q
  rw [abs_of_pos h] at h1 h2
  apply le_antisymm
  · by_contra hc
    push Not at hc
    have h3 := zpow_log_le (ne_of_gt hpos)
    rw [abs_of_pos hpos] at h3
    have h4 : (2 : ℚ) ^ (Int.log 2 q + 1 + k) ≤ (2 : ℚ) ^ Int.log 2 (q * (2 : ℚ) ^ k) :=
      zpow_le_zpow_right₀ (by norm_num) (by omega)
    rw [zpow_add₀ (by norm_num)] at h4
    have h5 := mul_lt_mul_of_pos_right h2 (two_zpow_pos k)
    linarith
  · by_contra hc
    push Not at hc
    have h3 := lt_zpow_log (q * (2 : ℚ) ^ k)
    rw [abs_of_pos hpos] at h3
    have h4 : (2 : ℚ) ^ (Int.log 2 (q * (2 : ℚ) ^ k) + 1) ≤ (2 : ℚ) ^ (Int.log 2 q + k) :=
      zpow_le_zpow_right₀ (by norm_num) (by omega)
    rw [zpow_add₀ (by norm_num) (Int.log 2 q) k] at h4
    have h5 := mul_le_mul_of_nonneg_right h1 (le_of_lt (two_zpow_pos k))
    linarith

/-- Rounding commutes with scaling by a power of two in the normal range. -/
theorem roundBin_mul_pow {p : Nat} {emin : Int} (q : ℚ) (k : Int) (h1 : emin ≤ Int.log 2 |q| + 1 - p)
    (h2 : emin ≤ Int.log 2 |q| + k + 1 - p) :
    roundBin p emin (q * (2 : ℚ) ^ k) = roundBin p emin q * (2 : ℚ) ^ k := by
  by_cases h : q = 0
  · rw [h]; simp [roundBin_zero]
  · have hk := two_zpow_pos k
    have h' : q * (2 : ℚ) ^ k ≠ 0 := mul_ne_zero h (ne_of_gt hk)
    have habs : |q * (2 : ℚ) ^ k| = |q| * (2 : ℚ) ^ k := by rw [abs_mul, abs_of_pos hk]
    have hlog : Int.log 2 |q * (2 : ℚ) ^ k| = Int.log 2 |q| + k := by
      rw [habs, log_mul_pow (abs_pos.2 h)]
    have e1 : ulpExp p emin q = Int.log 2 |q| + 1 - p := max_eq_left h1
    have e2 : ulpExp p emin (q * (2 : ℚ) ^ k) = ulpExp p emin q + k := by
      rw [e1]
      unfold ulpExp
      rw [hlog, max_eq_left h2]
      ring
    rw [roundBin_of_ne h, roundBin_of_ne h', e2, zpow_add₀ (by norm_num)]
    have hu := ne_of_gt (two_zpow_pos (ulpExp p emin q))
    have : q * (2 : ℚ) ^ k / ((2 : ℚ) ^ ulpExp p emin q * (2 : ℚ) ^ k) = q / (2 : ℚ) ^ ulpExp p emin q := by
      field_simp
    rw [this]
    ring

/-- `Int.log` bounds from bounds of the number. -/
theorem le_log_of_le {q : ℚ} {k : Int} (h : (2 : ℚ) ^ k ≤ |q|) : k ≤ Int.log 2 |q| := by
  by_contra hc
  push Not at hc
  have h1 := lt_zpow_log q
  have h2 : (2 : ℚ) ^ (Int.log 2 |q| + 1) ≤ (2 : ℚ) ^ k := zpow_le_zpow_right₀ (by norm_num) (by omega)
  linarith

/-- A finite result of a float operation. -/
theorem fl64_fin {q : ℚ} (h : |roundBin 53 (-1074) q| < (2 : ℚ) ^ (1024 : ℕ))
    (h0 : 0 ≤ q ∨ roundBin 53 (-1074) q ≠ 0) : fl64 q = .fin (roundBin 53 (-1074) q) := by
  unfold fl64
  simp only
  rw [if_neg (by linarith), if_neg]
  rintro ⟨h1, h2⟩
  rcases h0 with h0 | h0
  · linarith
  · exact h0 h1

end Knx
