import Verif.Props.Datapoints
import Verif.Lemmas.PyInt
import Mathlib.RingTheory.Coprime.Lemmas

/-!
# C79 The temperature of the climate report
-/

namespace Knx

open Spec

theorem two_tiny : (2 : ℚ) ^ (-1074 : Int) ≤ 1 / 10 ^ 100 := by
  refine le_trans (zpow_le_zpow_right₀ (by norm_num) (show (-1074 : Int) ≤ -200 - 200 by norm_num)) ?_
  rw [zpow_sub₀ (by norm_num)]
  norm_num

theorem two_huge : (100000 : ℚ) < (2 : ℚ) ^ (1024 : ℕ) := by
  refine lt_of_lt_of_le ?_ (pow_le_pow_right₀ (by norm_num) (show 20 ≤ 1024 by norm_num))
  norm_num

/-- Assigning ten times `t` to the nine bits. -/
theorem temperatura_set {d : Dpt} (hd : d.cls = .infoClimaReport) {v : PyVal} {t : Int} (h : Dpt.timesTen v = .ok t) :
    Dpt.setAttr "temperatura" v d = (.ok (), ⟨.infoClimaReport, setField 0 9 t d.raw⟩) := by
  obtain ⟨c, raw⟩ := d
  simp only at hd
  subst hd
  have hp : (⟨.infoClimaReport, raw⟩ : Dpt).findProp "temperatura" = some ⟨"temperatura", 0, 9, .temperatura⟩ := by
    unfold Dpt.findProp
    simp only
    decide
  unfold Dpt.setAttr
  rw [hp]
  simp only [Dpt.onRaw, Dpt.setProp, setTemperatura_eq h]

theorem temperatura_get {d : Dpt} (hd : d.cls = .infoClimaReport) :
    d.getAttr "temperatura" = .ok (.float (fl64 (((d.raw % 512 : Nat) : ℚ) / 10))) := by
  obtain ⟨c, raw⟩ := d
  simp only at hd
  subst hd
  have hp : (⟨.infoClimaReport, raw⟩ : Dpt).findProp "temperatura" = some ⟨"temperatura", 0, 9, .temperatura⟩ := by
    unfold Dpt.findProp
    simp only
    decide
  unfold Dpt.getAttr
  rw [hp]
  simp only [Dpt.getProp, getTemperatura_eq]
  unfold getField
  simp

theorem setField_low (t : Int) (raw : Nat) : setField 0 9 t raw % 512 = (t % 512).toNat := by
  have h := getField_setField_same 0 9 t raw
  unfold getField at h
  simp only [pow_zero, Nat.div_one] at h
  rw [show (512 : Nat) = 2 ^ 9 from rfl, h]
  rfl

/-- The double nearest to a tenth of a nine bit number. -/
theorem tenth_fin {n : Nat} (h : n < 512) : ∃ r, fl64 ((n : ℚ) / 10) = .fin r ∧ |r - (n : ℚ) / 10| ≤ 1 / 10 ^ 14 := by
  have hn : (n : ℚ) < 512 := by exact_mod_cast h
  have h0 : (0 : ℚ) ≤ (n : ℚ) / 10 := by positivity
  have he := roundBin_err_sum 53 (-1074) ((n : ℚ) / 10)
  have h1 : |roundBin 53 (-1074) ((n : ℚ) / 10) - (n : ℚ) / 10| ≤ 1 / 10 ^ 14 := by
    refine le_trans he ?_
    rw [abs_of_nonneg h0]
    have : (2 : ℚ) ^ (-1074 : Int) ≤ 1 / 10 ^ 100 := two_tiny
    have h2 : (n : ℚ) / 10 / 2 ^ 53 ≤ 512 / 10 / 2 ^ 53 := by gcongr
    refine le_trans (add_le_add h2 this) ?_
    norm_num
  refine ⟨_, fl64_fin ?_ (.inl h0), h1⟩
  rw [abs_le] at h1
  rw [abs_lt]
  have h2 := two_huge
  generalize (2 : ℚ) ^ (1024 : ℕ) = x at h2 ⊢
  constructor <;> linarith

/-- Ten times a number of moderate size, truncated. -/
theorem timesTen_float {q : ℚ} (h : |q| ≤ 1000) :
    ∃ t : Int, Dpt.timesTen (.float (.fin q)) = .ok t ∧
      (0 ≤ q → 0 ≤ t ∧ (t : ℚ) ≤ 10 * q + 1 / 10 ^ 11 ∧ 10 * q - 1 / 10 ^ 11 < t + 1) ∧
      (q ≤ 0 → t ≤ 0 ∧ 10 * q - 1 / 10 ^ 11 ≤ t ∧ (t : ℚ) - 1 < 10 * q + 1 / 10 ^ 11) := by
  have he := roundBin_err_sum 53 (-1074) (q * 10)
  set r := roundBin 53 (-1074) (q * 10) with hr
  have h1 : |r - q * 10| ≤ 1 / 10 ^ 11 := by
    refine le_trans he ?_
    rw [abs_mul, show |(10 : ℚ)| = 10 from abs_of_nonneg (by norm_num)]
    have : (2 : ℚ) ^ (-1074 : Int) ≤ 1 / 10 ^ 100 := two_tiny
    have h2 : |q| * 10 / 2 ^ 53 ≤ 1000 * 10 / 2 ^ 53 := by gcongr
    refine le_trans (add_le_add h2 this) ?_
    norm_num
  have hb : ¬ (2 : ℚ) ^ (1024 : ℕ) ≤ |r| := by
    rw [abs_le] at h1 h
    rw [not_le, abs_lt]
    have h2 := two_huge
    generalize (2 : ℚ) ^ (1024 : ℕ) = x at h2 ⊢
    constructor <;> linarith
  have hpos : 0 ≤ q → 0 ≤ r := fun h0 => roundBin_nonneg (by linarith)
  have hneg : q ≤ 0 → r ≤ 0 := fun h0 => by
    have : 0 ≤ roundBin 53 (-1074) (-(q * 10)) := roundBin_nonneg (by linarith)
    rw [roundBin_neg, ← hr] at this
    linarith
  rw [abs_le] at h1
  have hfl : fl64 (q * 10) = if r = 0 ∧ q * 10 < 0 then .negZero else .fin r := by
    unfold fl64
    simp only
    rw [← hr, if_neg hb]
  simp only [Dpt.timesTen, hfl]
  by_cases hz : r = 0 ∧ q * 10 < 0
  · rw [if_pos hz]
    refine ⟨0, rfl, ?_, ?_⟩
    · intro h0; linarith
    · intro h0
      obtain ⟨z1, z2⟩ := hz
      rw [z1] at h1
      refine ⟨le_refl _, ?_, ?_⟩ <;> push_cast <;> linarith
  · rw [if_neg hz]
    simp only [Dpt.floatToInt]
    refine ⟨_, rfl, ?_, ?_⟩
    · intro h0
      rw [if_pos (hpos h0)]
      have f1 := Int.floor_le r
      have f2 := Int.lt_floor_add_one r
      refine ⟨Int.floor_nonneg.2 (hpos h0), by linarith, by linarith⟩
    · intro h0
      by_cases hrz : 0 ≤ r
      · have : r = 0 := le_antisymm (hneg h0) hrz
        rw [if_pos hrz, this]
        rw [this] at h1
        simp only [Int.floor_zero, le_refl, Int.cast_zero, true_and]
        constructor <;> linarith
      · rw [if_neg hrz]
        have f1 := Int.le_ceil r
        have f2 := Int.ceil_lt_add_one r
        refine ⟨?_, by linarith, by linarith⟩
        rw [Int.ceil_le]
        push_cast
        exact hneg h0

/-- C79: the temperature a report holds is, up to the rounding of floats, a tenth of its nine low bits, at least 0 and at
most 51.1. -/
theorem c79_range {d : Dpt} (hd : d.cls = .infoClimaReport) :
    ∃ r, d.getAttr "temperatura" = .ok (.float (.fin r)) ∧ |r - ((d.raw % 512 : Nat) : ℚ) / 10| ≤ 1 / 10 ^ 14 := by
  obtain ⟨r, h1, h2⟩ := tenth_fin (Nat.mod_lt d.raw (by norm_num : 512 > 0))
  exact ⟨r, by rw [temperatura_get hd, h1], h2⟩

/-- C79 for the temperatures a report can hold: what was read from any report can be set in any other one, and reads back
as exactly the same float. -/
theorem c79_copy_partial {d d0 : Dpt} (hd : d.cls = .infoClimaReport) (hd0 : d0.cls = .infoClimaReport) {v : PyVal}
    (h : d0.getAttr "temperatura" = .ok v) :
    ∃ d', Dpt.setAttr "temperatura" v d = (.ok (), d') ∧ d'.cls = d.cls ∧ d'.getAttr "temperatura" = .ok v ∧
      d'.raw % 512 = d0.raw % 512 := by
  have hlt : d0.raw % 512 < 512 := Nat.mod_lt _ (by norm_num)
  rw [temperatura_get hd0] at h
  cases h
  refine ⟨_, temperatura_set hd (timesTen_tenth _ hlt), hd.symm, ?_, ?_⟩
  · rw [temperatura_get rfl, setField_low]
    congr 5
    push_cast
    omega
  · rw [setField_low]
    omega

/-- C79 for whole numbers of degrees from 0 to 51: they read back exactly. -/
theorem c79_whole_partial {d : Dpt} (hd : d.cls = .infoClimaReport) {n : Int} (h0 : 0 ≤ n) (h1 : n ≤ 51) :
    ∃ d', Dpt.setAttr "temperatura" (.int n) d = (.ok (), d') ∧ d'.cls = d.cls ∧
      d'.getAttr "temperatura" = .ok (.float (.fin n)) := by
  refine ⟨_, temperatura_set hd (v := .int n) rfl, hd.symm, ?_⟩
  rw [temperatura_get rfl, setField_low]
  have e : (((n * 10 % 512).toNat : Nat) : ℚ) / 10 = (n : ℚ) * (2 : ℚ) ^ (0 : Int) := by
    rw [Int.emod_eq_of_lt (by omega) (by omega)]
    have : (((n * 10).toNat : Nat) : ℚ) = ((n * 10 : Int) : ℚ) := by
      exact_mod_cast Int.toNat_of_nonneg (show 0 ≤ n * 10 by omega)
    rw [this]
    push_cast
    simp
  have hr : roundBin 53 (-1074) ((n : ℚ) * (2 : ℚ) ^ (0 : Int)) = (n : ℚ) * (2 : ℚ) ^ (0 : Int) :=
    roundBin_exact n 0 (by rw [abs_of_nonneg h0]; omega) (by norm_num) (by norm_num)
  have hq0 : (0 : ℚ) ≤ n := by exact_mod_cast h0
  have hq1 : (n : ℚ) ≤ 51 := by exact_mod_cast h1
  rw [e, fl64_fin]
  · rw [hr]
    simp
  · rw [hr]
    simp only [zpow_zero, mul_one]
    rw [abs_of_nonneg hq0]
    have h2 := two_huge
    generalize (2 : ℚ) ^ (1024 : ℕ) = x at h2 ⊢
    linarith
  · left
    simp only [zpow_zero, mul_one]
    exact hq0

/-- C79 for every float from 0 to 51.199: what reads back is the float cut to tenths, up to the rounding of floats. Missing
from the full claim: all other numbers (`c79_negative_refuted`, `c79_large_refuted`). -/
theorem c79_partial {d : Dpt} (hd : d.cls = .infoClimaReport) {q : ℚ} (h0 : 0 ≤ q) (h1 : q ≤ 51199 / 1000) :
    ∃ d' r, Dpt.setAttr "temperatura" (.float (.fin q)) d = (.ok (), d') ∧ d'.cls = d.cls ∧
      d'.getAttr "temperatura" = .ok (.float (.fin r)) ∧ -(1 / 10 ^ 11) ≤ q - r ∧ q - r < 1 / 10 + 1 / 10 ^ 11 := by
  obtain ⟨t, ht, hp, -⟩ := timesTen_float (q := q) (by rw [abs_of_nonneg h0]; linarith)
  obtain ⟨t0, t1, t2⟩ := hp h0
  have t3 : (t : ℚ) < 512 := by linarith
  have t4 : t < 512 := by exact_mod_cast t3
  obtain ⟨r, r1, r2⟩ := tenth_fin (n := t.toNat) (by omega)
  refine ⟨_, r, temperatura_set hd ht, hd.symm, ?_, ?_⟩
  · rw [temperatura_get rfl, setField_low, Int.emod_eq_of_lt t0 t4, r1]
  · have : ((t.toNat : Nat) : ℚ) = (t : ℚ) := by exact_mod_cast Int.toNat_of_nonneg t0
    rw [this, abs_le] at r2
    constructor <;> linarith

/-- C79 is false for every negative temperature of at least a tenth (above -51.1): what reads back is above 0, higher by
51.2 degrees than the temperature cut to tenths. -/
theorem c79_negative_refuted {d : Dpt} (hd : d.cls = .infoClimaReport) {q : ℚ} (h0 : q ≤ -(1001 / 10000)) (h1 : -(511 / 10) ≤ q) :
    ∃ d' r, Dpt.setAttr "temperatura" (.float (.fin q)) d = (.ok (), d') ∧
      d'.getAttr "temperatura" = .ok (.float (.fin r)) ∧ 512 / 10 - 1 / 10 ^ 11 ≤ r - q ∧
      r - q < 513 / 10 + 1 / 10 ^ 11 ∧ 0 < r := by
  obtain ⟨t, ht, -, hp⟩ := timesTen_float (q := q) (by rw [abs_of_nonpos (by linarith)]; linarith)
  obtain ⟨t0, t1, t2⟩ := hp (by linarith)
  have t3 : (-512 : ℚ) < t := by linarith
  have t4 : -512 < t := by exact_mod_cast t3
  have t5 : (t : ℚ) < 0 := by linarith
  have t6 : t < 0 := by exact_mod_cast t5
  have e : t % 512 = t + 512 := by omega
  obtain ⟨r, r1, r2⟩ := tenth_fin (n := (t + 512).toNat) (by omega)
  refine ⟨_, r, temperatura_set hd ht, ?_, ?_⟩
  · rw [temperatura_get rfl, setField_low, e, r1]
  · have : (((t + 512).toNat : Nat) : ℚ) = (t : ℚ) + 512 := by
      exact_mod_cast Int.toNat_of_nonneg (show 0 ≤ t + 512 by omega)
    rw [this, abs_le] at r2
    have t7 : (-511 : ℚ) ≤ t := by exact_mod_cast (show -511 ≤ t by omega)
    refine ⟨by linarith, by linarith, by linarith⟩

/-- C79 is false for every number, float or int, below 0 or from 51.2 on, for which assigning succeeds: no report reads
as that number afterwards. -/
theorem c79_large_refuted {d d' : Dpt} (hd : d.cls = .infoClimaReport) {v : PyVal} {q : ℚ}
    (hv : v = .float (.fin q) ∨ ∃ n : Int, v = .int n ∧ q = n) (hq : q < 0 ∨ 512 / 10 ≤ q)
    (h : Dpt.setAttr "temperatura" v d = (.ok (), d')) :
    ∃ r, d'.getAttr "temperatura" = .ok (.float (.fin r)) ∧ 0 ≤ r ∧ r ≤ 511 / 10 + 1 / 10 ^ 14 ∧ r ≠ q := by
  have hc : d'.cls = .infoClimaReport := by
    rcases ht : Dpt.timesTen v with e | t
    · exfalso
      have hp : d.findProp "temperatura" = some ⟨"temperatura", 0, 9, .temperatura⟩ := by
        unfold Dpt.findProp
        rw [hd]
        decide
      unfold Dpt.setAttr at h
      rw [hp] at h
      simp [Dpt.onRaw, Dpt.setProp, Dpt.setTemperatura, Py.bind, Py.lift, ht] at h
    · rw [temperatura_set hd ht] at h
      cases h
      rfl
  have hlt : d'.raw % 512 < 512 := Nat.mod_lt _ (by norm_num)
  obtain ⟨r, r1, r2⟩ := tenth_fin hlt
  have hnn : 0 ≤ r := by
    have h0 : (0 : ℚ) ≤ ((d'.raw % 512 : Nat) : ℚ) / 10 := by positivity
    have h1 := r1
    unfold fl64 at h1
    simp only at h1
    split_ifs at h1
    cases h1
    exact roundBin_nonneg h0
  have hle : ((d'.raw % 512 : Nat) : ℚ) ≤ 511 := by exact_mod_cast (show d'.raw % 512 ≤ 511 by omega)
  rw [abs_le] at r2
  have hup : r ≤ 511 / 10 + 1 / 10 ^ 14 := by linarith
  refine ⟨r, by rw [temperatura_get hc, r1], hnn, hup, ?_⟩
  rintro rfl
  rcases hq with hq | hq
  · linarith
  · have : (511 : ℚ) / 10 + 1 / 10 ^ 14 < 512 / 10 := by norm_num
    linarith

/-- C79 is false for every number given as text (digits of any script, also grouped by underscores, up to 430): it is
accepted, its digits are repeated ten times, and except for zero the report never reads as the number afterwards. -/
theorem c79_text_refuted {d : Dpt} (hd : d.cls = .infoClimaReport) {s : String} (hs : Grouped s.toList)
    (hl : (digitsOf s.toList).length ≤ 430) :
    ∃ d' r, Dpt.setAttr "temperatura" (.str s) d = (.ok (), d') ∧ d'.cls = d.cls ∧
      d'.raw % 512 = numeral (List.replicate 10 (digitsOf s.toList)).flatten % 512 ∧
      d'.getAttr "temperatura" = .ok (.float (.fin r)) ∧ (numeral (digitsOf s.toList) ≠ 0 → r ≠ numeral (digitsOf s.toList)) := by
  have ht : Dpt.timesTen (.str s) = .ok (numeral (List.replicate 10 (digitsOf s.toList)).flatten : Int) := by
    unfold Dpt.timesTen
    simp only
    rw [pyInt_ten, if_pos ⟨hs, hl⟩]
  obtain ⟨k, hk, hn⟩ := numeral_repeated 9 (digits_ne hs)
  have hraw : setField 0 9 (numeral (List.replicate 10 (digitsOf s.toList)).flatten : Int) d.raw % 512 =
      numeral (List.replicate 10 (digitsOf s.toList)).flatten % 512 := by
    rw [setField_low]
    omega
  obtain ⟨r, r1, r2⟩ := tenth_fin (n := numeral (List.replicate 10 (digitsOf s.toList)).flatten % 512) (Nat.mod_lt _ (by norm_num))
  refine ⟨_, r, temperatura_set hd ht, hd.symm, hraw, ?_, ?_⟩
  · rw [temperatura_get rfl, hraw, r1]
  · rintro h0 rfl
    rw [hn] at r2
    generalize numeral (digitsOf s.toList) = v at *
    rw [abs_le] at r2
    have h1 : (10 * v : ℚ) - ((v * k % 512 : Nat) : ℚ) < 1 := by linarith [r2.2]
    have h2 : -1 < (10 * v : ℚ) - ((v * k % 512 : Nat) : ℚ) := by linarith [r2.1]
    have h3 : (10 * v : Int) - ((v * k % 512 : Nat) : Int) < 1 := by exact_mod_cast h1
    have h4 : -1 < (10 * v : Int) - ((v * k % 512 : Nat) : Int) := by exact_mod_cast h2
    have h5 : 10 * v = v * k % 512 := by omega
    have h6 : ((512 : Nat) : Int) ∣ (v : Int) * (k - 10) := by
      have h7 : (v * k : Nat) = 512 * (v * k / 512) + v * k % 512 := (Nat.div_add_mod _ _).symm
      refine ⟨((v * k / 512 : Nat) : Int), ?_⟩
      have h8 : ((v * k : Nat) : Int) = 512 * ((v * k / 512 : Nat) : Int) + 10 * v := by
        rw [← h5] at h7
        exact_mod_cast h7
      push_cast at h8 ⊢
      linarith
    have h9 : IsCoprime ((512 : Nat) : Int) ((k : Int) - 10) := by
      rw [show ((512 : Nat) : Int) = 2 ^ 9 by norm_num]
      apply IsCoprime.pow_left
      refine ⟨-((k - 10) / 2), 1, ?_⟩
      omega
    have h10 := (h9.dvd_of_dvd_mul_right h6)
    have h11 : 512 ∣ v := by exact_mod_cast h10
    have h12 : v * k % 512 < 512 := Nat.mod_lt _ (by norm_num)
    have h13 := Nat.le_of_dvd (Nat.pos_of_ne_zero h0) h11
    omega

/-- C79: text that is not digits (with a sign, a point, spaces or anything else), or more than 430 of them, raises and
changes nothing. -/
theorem c79_text_raises {d : Dpt} (hd : d.cls = .infoClimaReport) {s : String}
    (h : ¬ (Grouped s.toList ∧ (digitsOf s.toList).length ≤ 430)) :
    Dpt.setAttr "temperatura" (.str s) d = (.error .valueError, d) := by
  have hp : d.findProp "temperatura" = some ⟨"temperatura", 0, 9, .temperatura⟩ := by
    unfold Dpt.findProp
    rw [hd]
    decide
  have ht : Dpt.timesTen (.str s) = .error .valueError := by
    unfold Dpt.timesTen
    simp only
    rw [pyInt_ten, if_neg h]
  unfold Dpt.setAttr
  rw [hp]
  simp [Dpt.onRaw, Dpt.setProp, Dpt.setTemperatura, Py.bind, Py.lift, ht]

/-- C79: an infinity or NaN raises and changes nothing. -/
theorem c79_raises {d : Dpt} (hd : d.cls = .infoClimaReport) (neg : Bool) :
    Dpt.setAttr "temperatura" (.float (.inf neg)) d = (.error .overflowError, d) ∧
      Dpt.setAttr "temperatura" (.float .nan) d = (.error .valueError, d) := by
  have hp : d.findProp "temperatura" = some ⟨"temperatura", 0, 9, .temperatura⟩ := by
    unfold Dpt.findProp
    rw [hd]
    decide
  constructor <;> unfold Dpt.setAttr <;> rw [hp] <;> rfl

example := c79_range (d := ⟨.infoClimaReport, 0x00E3E369⟩) rfl
example : (0x00E3E369 : Nat) % 512 = 361 := by decide
example := c79_copy_partial (d := ⟨.infoClimaReport, 0xFFFFFFFF⟩) (d0 := ⟨.infoClimaReport, 0x00E3E369⟩) rfl rfl
  (temperatura_get rfl)
example := c79_whole_partial (d := ⟨.infoClimaReport, 0x12345678⟩) rfl (n := 37) (by decide) (by decide)
example := c79_partial (d := ⟨.infoClimaReport, 0x12345678⟩) rfl (q := 2155 / 100) (by norm_num) (by norm_num)
example := c79_negative_refuted (d := ⟨.infoClimaReport, 0x12345678⟩) rfl (q := -5) (by norm_num) (by norm_num)
example := c79_large_refuted (d := ⟨.infoClimaReport, 0x12345678⟩) rfl (.inr ⟨60, rfl, rfl⟩) (.inr (by norm_num))
  (temperatura_set rfl (v := .int 60) rfl)
example := c79_text_refuted (d := ⟨.infoClimaReport, 0x12345678⟩) rfl (s := "21") (by decide +kernel) (by decide +kernel)
example : numeral (List.replicate 10 (digitsOf "21".toList)).flatten % 512 = 217 ∧ numeral (digitsOf "21".toList) = 21 := by
  decide +kernel
example := c79_text_raises (d := ⟨.infoClimaReport, 0x12345678⟩) rfl (s := "21.5") (by decide +kernel)
example := c79_raises (d := ⟨.infoClimaReport, 0x12345678⟩) rfl true

end Knx
