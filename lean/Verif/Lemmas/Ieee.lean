import Verif.Spec.Ieee
import Verif.Lemmas.Float

/-! # Rounding in the model is the rounding of IEEE 754 -/

namespace Knx
open Spec

theorem informat_neg {p : Nat} {emin : Int} {x : ℚ} (h : InFormat p emin x) : InFormat p emin (-x) := by
  obtain ⟨m, e, h1, h2, rfl⟩ := h
  exact ⟨-m, e, by rwa [abs_neg], h2, by push_cast; ring⟩

theorem nearest_neg {p : Nat} {emin : Int} {q x : ℚ} (h : Nearest p emin q x) : Nearest p emin (-q) (-x) := by
  obtain ⟨h1, h2, h3⟩ := h
  have e : ∀ y : ℚ, |y - -q| = |-y - q| := fun y => by rw [← abs_neg]; congr 1; ring
  refine ⟨informat_neg h1, fun y hy => ?_, fun ⟨y, y1, y2, y3⟩ => ?_⟩
  · rw [e, e, neg_neg]
    exact h2 _ (informat_neg hy)
  · rw [e, e, neg_neg] at y3
    exact informat_neg (h3 ⟨-y, informat_neg y1, fun h => y2 (by rw [← h, neg_neg]), y3⟩)

/-- A number of the format which is at least `2^l` is a multiple of the last digit of the numbers from there on. -/
theorem informat_multiple {p : Nat} {emin l : Int} {x : ℚ} (h : InFormat p emin x) (hx : (2 : ℚ) ^ l ≤ |x|) :
    ∃ n : Int, x = (n : ℚ) * (2 : ℚ) ^ max (l + 1 - p) emin := by
  obtain ⟨m, e, h1, h2, rfl⟩ := h
  have he : max (l + 1 - p) emin ≤ e := by
    refine max_le ?_ h2
    rw [abs_mul, abs_of_pos (two_zpow_pos e)] at hx
    have hm : |(m : ℚ)| < (2 : ℚ) ^ p := by exact_mod_cast h1
    have : (2 : ℚ) ^ l < (2 : ℚ) ^ ((p : Int) + e) := by
      rw [zpow_add₀ (by norm_num), zpow_natCast]
      exact lt_of_le_of_lt hx (mul_lt_mul_of_pos_right hm (two_zpow_pos e))
    have := (zpow_lt_zpow_iff_right₀ (by norm_num : (1 : ℚ) < 2)).1 this
    omega
  obtain ⟨d, hd⟩ := Int.le.dest he
  generalize max (l + 1 - (p : Int)) emin = u at hd
  refine ⟨m * 2 ^ d, ?_⟩
  rw [← hd, zpow_add₀ (by norm_num), zpow_natCast]
  push_cast
  ring

theorem informat_emin {p : Nat} {emin : Int} {x : ℚ} (h : InFormat p emin x) : ∃ n : Int, x = (n : ℚ) * (2 : ℚ) ^ emin := by
  obtain ⟨m, e, -, h2, rfl⟩ := h
  obtain ⟨d, rfl⟩ := Int.le.dest h2
  refine ⟨m * 2 ^ d, ?_⟩
  rw [zpow_add₀ (by norm_num), zpow_natCast]
  push_cast
  ring

theorem informat_of_le {p : Nat} (hp : 1 ≤ p) {emin : Int} {n e : Int} (hn : |n| ≤ 2 ^ p) (he : emin ≤ e) :
    InFormat p emin ((n : ℚ) * (2 : ℚ) ^ e) := by
  rcases lt_or_eq_of_le hn with h | h
  · exact ⟨n, e, h, he, rfl⟩
  · obtain ⟨k, rfl⟩ : ∃ k, p = k + 1 := ⟨p - 1, by omega⟩
    rcases abs_choice n with hc | hc
    · refine ⟨2 ^ k, e + 1, ?_, by omega, ?_⟩
      · rw [abs_of_pos (by positivity), pow_succ]; have : (0 : Int) < 2 ^ k := by positivity
        omega
      · rw [← hc, h, zpow_add₀ (by norm_num)]; push_cast; ring
    · refine ⟨-2 ^ k, e + 1, ?_, by omega, ?_⟩
      · rw [abs_neg, abs_of_pos (by positivity), pow_succ]; have : (0 : Int) < 2 ^ k := by positivity
        omega
      · have : n = -(2 ^ (k + 1)) := by omega
        rw [this, zpow_add₀ (by norm_num)]; push_cast; ring

theorem rhe_le (t : ℚ) (n : Int) : |(rhe t : ℚ) - t| ≤ |(n : ℚ) - t| := by
  by_cases h : n = rhe t
  · rw [h]
  · have h1 := rhe_err t
    have h2 : (1 : ℚ) ≤ |(n : ℚ) - rhe t| := by
      have : 1 ≤ |n - rhe t| := Int.one_le_abs (by omega)
      exact_mod_cast this
    have h3 := abs_sub_le (n : ℚ) t (rhe t)
    rw [abs_sub_comm t] at h3
    linarith

theorem rhe_tie {t : ℚ} {n : Int} (h : n ≠ rhe t) (he : |(n : ℚ) - t| = |(rhe t : ℚ) - t|) : rhe t % 2 = 0 := by
  have h1 := rhe_err t
  have h2 : (1 : ℚ) ≤ |(n : ℚ) - rhe t| := by
    have : 1 ≤ |n - rhe t| := Int.one_le_abs (by omega)
    exact_mod_cast this
  have h3 := abs_sub_le (n : ℚ) t (rhe t)
  rw [abs_sub_comm t, he] at h3
  have h4 : |(rhe t : ℚ) - t| = 1 / 2 := by linarith
  have f1 := Int.floor_le t
  have f2 := Int.lt_floor_add_one t
  have hf : t - ⌊t⌋ = 1 / 2 := by
    rcases rhe_cases t with ⟨c, c'⟩ | ⟨c, c'⟩
    · rw [c, abs_of_nonpos (by linarith)] at h4; linarith
    · rw [c, abs_of_nonneg (by push_cast; linarith)] at h4; push_cast at h4; linarith
  unfold rhe
  rw [if_neg (by linarith), if_neg (by linarith)]
  split_ifs with hh
  · exact hh
  · omega

/-- A number of the format that is as near as the rounded one is a multiple of the last digit. -/
theorem near_multiple {p : Nat} (hp : 1 ≤ p) {emin : Int} {q y : ℚ} (hq : 0 < q) (hy : InFormat p emin y) :
    (∃ n : Int, y = (n : ℚ) * (2 : ℚ) ^ ulpExp p emin q) ∨ |roundBin p emin q - q| < |y - q| := by
  by_cases hc : Int.log 2 |q| + 1 - p ≤ emin
  · left
    unfold ulpExp
    rw [max_eq_right hc]
    exact informat_emin hy
  push Not at hc
  by_cases hl : (2 : ℚ) ^ Int.log 2 |q| ≤ |y|
  · left
    exact informat_multiple hy hl
  · right
    have hu : ulpExp p emin q = Int.log 2 |q| + 1 - p := max_eq_left (le_of_lt hc)
    have h1 := zpow_log_le (ne_of_gt hq)
    set l := Int.log 2 |q| with hldef
    rw [abs_of_pos hq] at h1
    have h2 : y < (2 : ℚ) ^ l := lt_of_le_of_lt (le_abs_self y) (not_le.1 hl)
    rw [roundBin_of_ne (ne_of_gt hq), hu]
    set u := (2 : ℚ) ^ (l + 1 - (p : Int)) with hudef
    have hup : 0 < u := two_zpow_pos _
    have hpow : (2 : ℚ) ^ l = ((2 ^ (p - 1) : Int) : ℚ) * u := by
      push_cast
      rw [hudef, ← zpow_natCast (2 : ℚ) (p - 1), ← zpow_add₀ (by norm_num)]
      congr 1
      omega
    have h3 := rhe_le (q / u) (2 ^ (p - 1))
    have e1 : (rhe (q / u) : ℚ) * u - q = ((rhe (q / u) : ℚ) - q / u) * u := by field_simp
    have e2 : (2 : ℚ) ^ l - q = (((2 ^ (p - 1) : Int) : ℚ) - q / u) * u := by rw [hpow]; field_simp
    have h4 : |(rhe (q / u) : ℚ) * u - q| ≤ |(2 : ℚ) ^ l - q| := by
      rw [e1, e2, abs_mul, abs_mul]
      exact mul_le_mul_of_nonneg_right h3 (abs_nonneg _)
    refine lt_of_le_of_lt h4 ?_
    rw [abs_of_nonpos (by linarith), abs_of_nonpos (by linarith)]
    linarith

theorem roundBin_nearest_pos {p : Nat} (hp : 2 ≤ p) {emin : Int} {q : ℚ} (hq : 0 < q) :
    Nearest p emin q (roundBin p emin q) := by
  obtain ⟨n, e, n1, n2, n3⟩ := roundBin_repr p emin (by omega) q
  refine ⟨n3 ▸ informat_of_le (by omega) n1 n2, fun y hy => ?_, ?_⟩
  · rcases near_multiple (by omega) hq hy with ⟨k, rfl⟩ | h
    · rw [roundBin_of_ne (ne_of_gt hq)]
      set u := (2 : ℚ) ^ ulpExp p emin q
      have hup : 0 < u := two_zpow_pos _
      have e1 : ∀ r : Int, (r : ℚ) * u - q = ((r : ℚ) - q / u) * u := fun r => by field_simp
      rw [e1, e1, abs_mul, abs_mul]
      exact mul_le_mul_of_nonneg_right (rhe_le _ _) (abs_nonneg _)
    · exact le_of_lt h
  · rintro ⟨y, hy, hne, heq⟩
    rcases near_multiple (by omega) hq hy with ⟨k, rfl⟩ | h
    swap
    · exact absurd heq (ne_of_gt h)
    clear n3 n2 n1 n e
    obtain ⟨R, hR, hb⟩ : ∃ R : Int, rhe (q / (2 : ℚ) ^ ulpExp p emin q) = R ∧ |R| ≤ 2 ^ p := by
      have hb : |q| / (2 : ℚ) ^ ulpExp p emin q ≤ (2 : ℚ) ^ p := by
        rw [div_le_iff₀ (two_zpow_pos _)]
        have h1 := lt_zpow_log q
        have h2 : (2 : ℚ) ^ (Int.log 2 |q| + 1) ≤ (2 : ℚ) ^ ((p : Int) + ulpExp p emin q) :=
          zpow_le_zpow_right₀ (by norm_num) (by unfold ulpExp; omega)
        rw [zpow_add₀ (by norm_num) (p : Int), zpow_natCast] at h2
        linarith
      have h3 : (rhe (|q| / (2 : ℚ) ^ ulpExp p emin q)) ≤ 2 ^ p := by
        have := rhe_mono hb
        have hi := rhe_int (2 ^ p)
        push_cast at hi
        rw [hi] at this
        exact this
      have h4 := rhe_natAbs (q / (2 : ℚ) ^ ulpExp p emin q)
      rw [abs_div, abs_of_pos (two_zpow_pos _)] at h4
      rw [← h4] at h3
      exact ⟨_, rfl, by rwa [Int.abs_eq_natAbs]⟩
    rw [roundBin_of_ne (ne_of_gt hq)] at hne heq ⊢
    have hu2 : emin ≤ ulpExp p emin q := le_max_right _ _
    have hup : 0 < (2 : ℚ) ^ ulpExp p emin q := two_zpow_pos _
    have e1 : ∀ r : Int, (r : ℚ) * (2 : ℚ) ^ ulpExp p emin q - q =
        ((r : ℚ) - q / (2 : ℚ) ^ ulpExp p emin q) * (2 : ℚ) ^ ulpExp p emin q := fun r => by field_simp
    rw [e1, e1, abs_mul, abs_mul] at heq
    have heq := mul_right_cancel₀ (ne_of_gt (abs_pos.2 (ne_of_gt hup))) heq
    have heven := rhe_tie (fun h => hne (by rw [h])) heq
    rw [hR] at heven ⊢
    obtain ⟨k', rfl⟩ : ∃ k', R = 2 * k' := ⟨R / 2, by omega⟩
    have : ((2 * k' : Int) : ℚ) * (2 : ℚ) ^ ulpExp p emin q = (k' : ℚ) * (2 : ℚ) ^ (ulpExp p emin q + 1) := by
      rw [zpow_add₀ (by norm_num)]; push_cast; ring
    rw [this]
    refine informat_of_le (by omega) ?_ (by omega)
    rw [abs_mul] at hb
    have hp2 : (2 : Int) ^ p = 2 * 2 ^ (p - 1) := by
      rw [← pow_succ']; congr 1; omega
    rw [hp2] at hb
    have : |(2 : Int)| = 2 := rfl
    rw [this] at hb
    omega

/-- Rounding in the model is the rounding of IEEE 754. -/
theorem roundBin_nearest {p : Nat} (hp : 2 ≤ p) (emin : Int) (q : ℚ) : Nearest p emin q (roundBin p emin q) := by
  rcases lt_trichotomy q 0 with h | h | h
  · have := nearest_neg (roundBin_nearest_pos hp (emin := emin) (q := -q) (by linarith))
    rwa [roundBin_neg, neg_neg, neg_neg] at this
  · subst h
    rw [roundBin_zero]
    refine ⟨⟨0, emin, by simp, le_refl _, by simp⟩, fun y _ => by simp, ?_⟩
    rintro ⟨y, -, h1, h2⟩
    simp at h2
    exact absurd h2 h1
  · exact roundBin_nearest_pos hp h

/-- There is only one number that `q` is rounded to. -/
theorem nearest_unique {p : Nat} (hp : 2 ≤ p) {emin : Int} {q x y : ℚ} (hx : Nearest p emin q x) (hy : Nearest p emin q y) :
    x = y := by
  have key : ∀ {q x : ℚ}, 0 < q → Nearest p emin q x → x = roundBin p emin q := by
    intro q x hq hx
    have hr := roundBin_nearest hp emin q
    by_contra hne
    have heq : |x - q| = |roundBin p emin q - q| := le_antisymm (hx.2.1 _ hr.1) (hr.2.1 _ hx.1)
    have ex := hx.2.2 ⟨_, hr.1, Ne.symm hne, heq.symm⟩
    have er := hr.2.2 ⟨_, hx.1, hne, heq⟩
    obtain ⟨M, hM⟩ : ∃ n : Int, x = (n : ℚ) * (2 : ℚ) ^ ulpExp p emin q :=
      (near_multiple (by omega) hq hx.1).resolve_right (by rw [heq]; exact lt_irrefl _)
    -- both have an even last digit although they are neighbours
    have hup := two_zpow_pos (ulpExp p emin q)
    have even : ∀ {z : ℚ}, InFormat (p - 1) (emin + 1) z → |z - q| = |roundBin p emin q - q| →
        ∃ n : Int, z = ((2 * n : Int) : ℚ) * (2 : ℚ) ^ ulpExp p emin q := by
      intro z hz hzq
      have dbl : ∀ {w : Int} {n : Int}, ulpExp p emin q + 1 = w → (n : ℚ) * (2 : ℚ) ^ w =
          ((2 * n : Int) : ℚ) * (2 : ℚ) ^ ulpExp p emin q := by
        rintro w n rfl
        rw [zpow_add₀ (by norm_num)]; push_cast; ring
      by_cases hc : Int.log 2 |q| + 1 - p ≤ emin
      · obtain ⟨n, hn⟩ := informat_emin hz
        exact ⟨n, by rw [hn]; exact dbl (by unfold ulpExp; rw [max_eq_right hc])⟩
      · push Not at hc
        by_cases hl : (2 : ℚ) ^ Int.log 2 |q| ≤ |z|
        · obtain ⟨n, hn⟩ := informat_multiple hz hl
          refine ⟨n, hn.trans (dbl ?_)⟩
          unfold ulpExp
          rw [max_eq_left (le_of_lt hc), max_eq_left (by omega)]
          omega
        · exfalso
          have h1 := zpow_log_le (ne_of_gt hq)
          have hu : ulpExp p emin q = Int.log 2 |q| + 1 - p := max_eq_left (le_of_lt hc)
          have hz' : z < (2 : ℚ) ^ Int.log 2 |q| := lt_of_le_of_lt (le_abs_self z) (not_le.1 hl)
          rw [abs_of_pos hq] at h1 hz'
          have hh : InFormat p emin ((2 : ℚ) ^ Int.log 2 q) := by
            have := informat_of_le (p := p) (by omega) (emin := emin) (n := 2 ^ (p - 1)) (e := ulpExp p emin q)
              (by rw [abs_of_pos (by positivity)]; exact pow_le_pow_right₀ (by norm_num) (by omega)) (le_max_right _ _)
            rw [hu, abs_of_pos hq] at this
            push_cast at this
            rw [← zpow_natCast (2 : ℚ) (p - 1), ← zpow_add₀ (by norm_num)] at this
            convert this using 2
            omega
          have := hr.2.1 _ hh
          rw [← hzq, abs_of_nonpos (by linarith), abs_of_nonpos (by linarith)] at this
          linarith
    obtain ⟨a, ha⟩ := even ex heq
    obtain ⟨b, hb⟩ := even er rfl
    have err := roundBin_err p emin q
    have hd : |x - roundBin p emin q| ≤ (2 : ℚ) ^ ulpExp p emin q := by
      have := abs_sub_le x q (roundBin p emin q)
      rw [abs_sub_comm q] at this
      linarith
    rw [ha, hb, ← sub_mul, abs_mul, abs_of_pos hup] at hd
    have hd' : |((2 * a : Int) : ℚ) - ((2 * b : Int) : ℚ)| ≤ 1 := by
      by_contra hc
      push Not at hc
      have := mul_lt_mul_of_pos_right hc hup
      linarith
    have hi : |2 * a - 2 * b| ≤ 1 := by exact_mod_cast hd'
    have : a = b := by rw [abs_le] at hi; omega
    exact hne (by rw [ha, hb, this])
  rcases lt_trichotomy q 0 with h | h | h
  · have h1 := key (by linarith) (nearest_neg hx)
    have h2 := key (by linarith) (nearest_neg hy)
    linarith
  · subst h
    have h0 : InFormat p emin 0 := ⟨0, emin, by simp, le_refl _, by simp⟩
    have h1 := hx.2.1 0 h0
    have h2 := hy.2.1 0 h0
    simp at h1 h2
    rw [h1, h2]
  · rw [key h hx, key h hy]

theorem roundBin_iff {p : Nat} (hp : 2 ≤ p) {emin : Int} {q x : ℚ} : Nearest p emin q x ↔ x = roundBin p emin q :=
  ⟨fun h => nearest_unique hp h (roundBin_nearest hp emin q), fun h => h ▸ roundBin_nearest hp emin q⟩

/-- From where on numbers are rounded to the power of two above the largest number with a given exponent. -/
theorem nearest_limit {p : Nat} (hp : 2 ≤ p) {emin l : Int} (hl : emin ≤ l + 1 - p) {q x : ℚ} (hx : Nearest p emin q x) :
    (2 : ℚ) ^ (l + 1) ≤ |x| ↔ (2 : ℚ) ^ (l + 1) - (2 : ℚ) ^ (l - p) ≤ |q| := by
  wlog h0 : 0 ≤ q generalizing q x with H
  · have := H (nearest_neg hx) (by linarith)
    rwa [abs_neg, abs_neg] at this
  set u := (2 : ℚ) ^ (l + 1 - (p : Int)) with hu
  have hup : 0 < u := two_zpow_pos _
  have hhalf : (2 : ℚ) ^ (l - (p : Int)) = u / 2 := by
    rw [hu, show l + 1 - (p : Int) = (l - p) + 1 by ring, zpow_add₀ (by norm_num)]; ring
  have htop : (2 : ℚ) ^ (l + 1) = ((2 ^ p : Int) : ℚ) * u := by
    push_cast
    rw [hu, ← zpow_natCast (2 : ℚ) p, ← zpow_add₀ (by norm_num)]
    congr 1
    omega
  have ht : InFormat p emin ((2 : ℚ) ^ (l + 1)) := by
    rw [htop]
    exact informat_of_le (by omega) (by rw [abs_of_pos (by positivity)]) hl
  have hpos : (0 : Int) < 2 ^ p := by positivity
  have hb : InFormat p emin (((2 ^ p - 1 : Int) : ℚ) * u) := ⟨2 ^ p - 1, _, by rw [abs_of_nonneg (by omega)]; omega, hl, rfl⟩
  have hbt : ((2 ^ p - 1 : Int) : ℚ) * u = (2 : ℚ) ^ (l + 1) - u := by rw [htop]; push_cast; ring
  rw [hbt] at hb
  have hx0 : 0 ≤ x := by
    rw [(roundBin_iff hp).1 hx]
    exact roundBin_nonneg h0
  rw [abs_of_nonneg hx0, abs_of_nonneg h0, hhalf]
  constructor
  · intro h
    by_contra hc
    push Not at hc
    have := hx.2.1 _ hb
    rw [abs_of_nonneg (by linarith)] at this
    rcases abs_cases ((2 : ℚ) ^ (l + 1) - u - q) with ⟨hh, -⟩ | ⟨hh, -⟩ <;> rw [hh] at this <;> linarith
  · intro h
    by_contra hc
    push Not at hc
    -- then x is at most the largest number below the power of two
    have hle : x ≤ (2 : ℚ) ^ (l + 1) - u := by
      by_cases hxl : (2 : ℚ) ^ l ≤ |x|
      · obtain ⟨n, hn⟩ := informat_multiple hx.1 hxl
        rw [max_eq_left hl, ← hu] at hn
        rw [hn, htop] at hc
        have : (n : ℚ) < ((2 ^ p : Int) : ℚ) := lt_of_mul_lt_mul_right hc (le_of_lt hup)
        have : n ≤ 2 ^ p - 1 := by have : n < 2 ^ p := by exact_mod_cast this
                                   omega
        rw [← hbt, hn]
        exact mul_le_mul_of_nonneg_right (by exact_mod_cast this) (le_of_lt hup)
      · rw [abs_of_nonneg hx0] at hxl
        push Not at hxl
        have e1 : (2 : ℚ) ^ (l + 1) = 2 * (2 : ℚ) ^ l := by rw [zpow_add₀ (by norm_num)]; ring
        have e2 : u ≤ (2 : ℚ) ^ l := zpow_le_zpow_right₀ (by norm_num) (by omega)
        linarith
    have h1 := hx.2.1 _ ht
    have hq : |x - q| = q - x := by rw [abs_of_nonpos (by linarith)]; ring
    rw [hq] at h1
    -- the two are equally near, so that x would have an even last digit
    have h2 : (2 : ℚ) ^ (l + 1) - u / 2 = q ∧ x = (2 : ℚ) ^ (l + 1) - u := by
      rcases le_total q ((2 : ℚ) ^ (l + 1)) with hh | hh
      · rw [abs_of_nonneg (by linarith)] at h1
        constructor <;> linarith
      · rw [abs_of_nonpos (by linarith)] at h1
        linarith
    have h3 := hx.2.2 ⟨_, ht, by linarith, by rw [hq, ← h2.1, h2.2, abs_of_nonneg (by linarith)]; ring⟩
    have hxl : (2 : ℚ) ^ l ≤ |x| := by
      have e1 : (2 : ℚ) ^ (l + 1) = 2 * (2 : ℚ) ^ l := by rw [zpow_add₀ (by norm_num)]; ring
      have e2 : u ≤ (2 : ℚ) ^ l := zpow_le_zpow_right₀ (by norm_num) (by omega)
      rw [abs_of_nonneg hx0]
      linarith [h2.2]
    obtain ⟨n, hn⟩ := informat_multiple h3 hxl
    rw [max_eq_left (by omega), show l + 1 - ((p - 1 : Nat) : Int) = (l + 1 - p) + 1 by omega, zpow_add₀ (by norm_num), ← hu,
      h2.2, ← hbt] at hn
    have : ((2 ^ p - 1 : Int) : ℚ) = ((2 * n : Int) : ℚ) := by
      apply mul_right_cancel₀ (ne_of_gt hup)
      rw [hn]; push_cast; ring
    have h4 : (2 ^ p - 1 : Int) = 2 * n := by exact_mod_cast this
    have h5 : (2 : Int) ^ p = 2 * 2 ^ (p - 1) := by rw [← pow_succ']; congr 1; omega
    rw [h5] at h4
    omega

end Knx
