import Verif.Props.Ieee

/-! # C123: ints given to the float types -/

namespace Knx
open Spec

/-- No int but zero rounds to zero: the int one nearer to zero would be closer. -/
theorem int_nearest_zero {n : Int} (h : Nearest 53 (-1074) (n : ℚ) 0) : ¬ (n : ℚ) < 0 := by
  intro hn
  have hn' : n ≤ -1 := by
    have : n < 0 := by exact_mod_cast hn
    omega
  have hq : (n : ℚ) ≤ -1 := by exact_mod_cast hn'
  have h1 := h.2.1 (-1) ⟨-1, 0, by norm_num, by norm_num, by norm_num⟩
  rw [abs_of_nonneg (by linarith : (0 : ℚ) ≤ 0 - n), abs_of_nonneg (by linarith : (0 : ℚ) ≤ -1 - n)] at h1
  linarith

theorem intToFloat_nearest {n : Int} {x : ℚ} (hx : Nearest 53 (-1074) (n : ℚ) x)
    (hr : |(n : ℚ)| < 2 ^ 1024 - 2 ^ 970) : intToFloat n = .ok (.fin x) := by
  have h := ((c92_double (n : ℚ)).1 x).2 ⟨hx, hr, fun hz => int_nearest_zero (hz.1 ▸ hx) hz.2⟩
  unfold intToFloat
  rw [h]

theorem intToFloat_overflow {n : Int} (hr : 2 ^ 1024 - 2 ^ 970 ≤ |(n : ℚ)|) :
    intToFloat n = .error .overflowError := by
  have h := ((c92_double (n : ℚ)).2.2.1 (decide ((n : ℚ) < 0))).2 ⟨hr, rfl⟩
  unfold intToFloat
  rw [h]

/-- C123: an int given to `encode` of a float type is stored as the double nearest to it is stored, and it raises
`OverflowError`, changing nothing, exactly where the doubles end. -/
theorem c123_double (d : Dpt) (h : Spec.isFloat16 d.cls = true ∨ Spec.isFloat32 d.cls = true) (n : Int) :
    (∀ x, Nearest 53 (-1074) (n : ℚ) x → |(n : ℚ)| < 2 ^ 1024 - 2 ^ 970 →
      Dpt.encode (.int n) d = Dpt.encode (.float (.fin x)) d) ∧
    (2 ^ 1024 - 2 ^ 970 ≤ |(n : ℚ)| → Dpt.encode (.int n) d = (.error .overflowError, d)) := by
  constructor
  · intro x hx hr
    unfold Dpt.encode Dpt.toFloat
    simp only [intToFloat_nearest hx hr]
  · intro hr
    unfold Dpt.encode Dpt.toFloat
    simp only [intToFloat_overflow hr]
    rcases h with h | h
    · rw [kind_float16.1 h]
      rfl
    · rw [kind_float32.1 h]
      rfl

/-- C123: an int is therefore rounded twice, first to a double and then to a binary32 number, and what is stored need not
be the binary32 number nearest to the int: 2^60 + 2^36 + 1 is nearer to 2^60 + 2^37, but 2^60 is stored. -/
theorem c123_refuted (d : Dpt) (h : Spec.isFloat32 d.cls = true) :
    ∃ n : Int, ∃ r x y, Dpt.encode (.int n) d = (.ok (), r) ∧ r.decode = .ok (.fin x) ∧
      Nearest 24 (-149) (n : ℚ) y ∧ x ≠ y := by
  have h1 : Nearest 53 (-1074) ((2 ^ 60 + 2 ^ 36 + 1 : Int) : ℚ) (2 ^ 60 + 2 ^ 36) := by
    rw [roundBin_iff (by norm_num)]
    decide +kernel
  have h2 : Nearest 24 (-149) ((2 : ℚ) ^ 60 + 2 ^ 36) (2 ^ 60) := by
    rw [roundBin_iff (by norm_num)]
    decide +kernel
  have h3 : Nearest 24 (-149) ((2 ^ 60 + 2 ^ 36 + 1 : Int) : ℚ) (2 ^ 60 + 2 ^ 37) := by
    rw [roundBin_iff (by norm_num)]
    decide +kernel
  obtain ⟨r, e1, -, -, e2⟩ := c22_nearest d h h2 (by rw [abs_of_nonneg (by positivity)]; norm_num)
  refine ⟨2 ^ 60 + 2 ^ 36 + 1, r, 2 ^ 60, 2 ^ 60 + 2 ^ 37, ?_, ?_, h3, by norm_num⟩
  · rw [(c123_double d (.inr h) _).1 _ h1 (by decide +kernel), e1]
  · rw [e2, if_neg (by norm_num)]

/-- C123: below 2^53 an int is a double, and the binary32 number nearest to it is stored. -/
theorem c123_nearest_partial (d : Dpt) (h : Spec.isFloat32 d.cls = true) (n : Int) (hn : |n| < 2 ^ 53) {y : ℚ}
    (hy : Nearest 24 (-149) (n : ℚ) y) :
    ∃ r, Dpt.encode (.int n) d = (.ok (), r) ∧ r.cls = d.cls ∧ r.decode = .ok (.fin y) := by
  have hq : |(n : ℚ)| < 2 ^ 53 := by exact_mod_cast hn
  have hx : Nearest 53 (-1074) (n : ℚ) n := by
    refine ⟨⟨n, 0, hn, by norm_num, by norm_num⟩, fun y _ => by rw [sub_self, abs_zero]; exact abs_nonneg _, ?_⟩
    rintro ⟨y, -, hne, he⟩
    rw [sub_self, abs_zero, abs_eq_zero, sub_eq_zero] at he
    exact absurd he hne
  have hl : (2 : ℚ) ^ 53 < 2 ^ 1024 - 2 ^ 970 := by decide +kernel
  have ho : (2 : ℚ) ^ 53 < Spec.overflow32 := by decide +kernel
  obtain ⟨r, h1, h2, -, h3⟩ := c22_overflow d h hy
  refine ⟨r, ?_, h2, ?_⟩
  · rw [(c123_double d (.inr h) n).1 _ hx (hq.trans hl), h1]
  · rw [h3 (hq.trans ho), if_neg]
    rintro ⟨rfl, hneg⟩
    have hn' : n ≤ -1 := by
      have : n < 0 := by exact_mod_cast hneg
      omega
    have hq' : (n : ℚ) ≤ -1 := by exact_mod_cast hn'
    have hf := hy.2.1 (-1) ⟨-1, 0, by norm_num, by norm_num, by norm_num⟩
    rw [abs_of_nonneg (by linarith : (0 : ℚ) ≤ 0 - n), abs_of_nonneg (by linarith : (0 : ℚ) ≤ -1 - n)] at hf
    linarith

/-- Rounding does not pass a number of the format. -/
theorem nearest_between {p : Nat} {emin : Int} {q x y : ℚ} (h : Nearest p emin q x) (hy : InFormat p emin y) :
    (y ≤ q → y ≤ x) ∧ (q ≤ y → x ≤ y) := by
  have h1 := h.2.1 y hy
  constructor
  · intro hq
    by_contra hx
    rw [abs_of_nonpos (by linarith : x - q ≤ 0), abs_of_nonpos (by linarith : y - q ≤ 0)] at h1
    linarith
  · intro hq
    by_contra hx
    rw [abs_of_nonneg (by linarith : 0 ≤ x - q), abs_of_nonneg (by linarith : 0 ≤ y - q)] at h1
    linarith

/-- Rounding keeps the order. -/
theorem nearest_mono {p : Nat} (hp : 2 ≤ p) {emin : Int} {q q' x x' : ℚ} (h : Nearest p emin q x) (h' : Nearest p emin q' x')
    (hq : q ≤ q') : x ≤ x' := by
  by_contra hx
  have h1 := nearest_between h h'.1
  have h2 := nearest_between h' h.1
  have a1 : x' < q := by
    by_contra hn
    exact hx (h1.2 (by linarith))
  have a2 : q' < x := by
    by_contra hn
    exact hx (h2.1 (by linarith))
  have b1 := h.2.1 x' h'.1
  have b2 := h'.2.1 x h.1
  rw [abs_of_nonneg (by linarith : 0 ≤ x - q), abs_of_nonpos (by linarith : x' - q ≤ 0)] at b1
  rw [abs_of_nonpos (by linarith : x' - q' ≤ 0), abs_of_nonneg (by linarith : 0 ≤ x - q')] at b2
  obtain rfl : q = q' := by linarith
  exact hx (le_of_eq (nearest_unique hp h h'))

theorem informat_wider {x : ℚ} (h : InFormat 24 (-149) x) : InFormat 53 (-1074) x := by
  obtain ⟨m, e, h1, h2, h3⟩ := h
  exact ⟨m, e, h1.trans (by norm_num), by linarith, h3⟩

/-- The double nearest to a number is beyond the range of binary32 exactly from half a unit of the doubles below on. -/
theorem double_overflow {q x : ℚ} (h : Nearest 53 (-1074) q x) :
    Spec.overflow32 ≤ |x| ↔ (2 : ℚ) ^ 128 - 2 ^ 103 - 2 ^ 74 ≤ |q| := by
  have hx : Nearest 53 (-1074) |q| |x| := by
    rw [roundBin_iff (by norm_num)] at h ⊢
    rw [h, roundBin_abs]
  have ho : Spec.overflow32 = (2 : ℚ) ^ 128 - 2 ^ 103 := by decide +kernel
  constructor
  · intro hge
    by_contra hlt
    have hd : InFormat 53 (-1074) ((2 : ℚ) ^ 128 - 2 ^ 103 - 2 ^ 75) := ⟨2 ^ 53 - 2 ^ 28 - 1, 75, by decide, by norm_num, by norm_num⟩
    have h1 := (nearest_between hx hd).2
    have h2 := hx.2.1 _ hd
    by_cases hq : |q| ≤ (2 : ℚ) ^ 128 - 2 ^ 103 - 2 ^ 75
    · have := h1 hq
      rw [ho] at hge
      linarith [show (0 : ℚ) < 2 ^ 75 by positivity]
    · rw [ho] at hge
      have e : (2 : ℚ) ^ 75 = 2 * 2 ^ 74 := by norm_num
      have hp : (0 : ℚ) < 2 ^ 74 := by positivity
      generalize (2 : ℚ) ^ 128 - 2 ^ 103 = O at *
      generalize (2 : ℚ) ^ 75 = A at *
      generalize (2 : ℚ) ^ 74 = B at *
      generalize |x| = X at *
      generalize |q| = Q at *
      rw [abs_of_nonneg (by linarith : 0 ≤ X - Q), abs_of_nonpos (by linarith : O - A - Q ≤ 0)] at h2
      linarith
  · intro hge
    have ht : Nearest 53 (-1074) ((2 : ℚ) ^ 128 - 2 ^ 103 - 2 ^ 74) Spec.overflow32 := by
      rw [roundBin_iff (by norm_num)]
      decide +kernel
    exact nearest_mono (by norm_num) ht hx hge

/-- C123: an int that is a double's half unit or less below the range of 4-octet floats is stored as an infinity already, and so are all
above, up to where `OverflowError` is raised; no others are. -/
theorem c123_overflow (d : Dpt) (h : Spec.isFloat32 d.cls = true) (n : Int) (hn : |(n : ℚ)| < 2 ^ 1024 - 2 ^ 970) :
    ∃ r, Dpt.encode (.int n) d = (.ok (), r) ∧ r.cls = d.cls ∧
      (r.decode = .ok (.inf (decide (n < 0))) ↔ 2 ^ 128 - 2 ^ 103 - 2 ^ 74 ≤ |n|) := by
  have hx := roundBin_nearest (p := 53) (by norm_num) (-1074) (n : ℚ)
  generalize roundBin 53 (-1074) (n : ℚ) = q at hx
  have hy := roundBin_nearest (p := 24) (by norm_num) (-149) q
  generalize roundBin 24 (-149) q = y at hy
  obtain ⟨r, h1, h2, h3, h4⟩ := c22_overflow d h hy
  refine ⟨r, by rw [(c123_double d (.inr h) n).1 _ hx hn, h1], h2, ?_⟩
  have hb := double_overflow hx
  have hi : (2 : ℚ) ^ 128 - 2 ^ 103 - 2 ^ 74 ≤ |(n : ℚ)| ↔ (2 : Int) ^ 128 - 2 ^ 103 - 2 ^ 74 ≤ |n| := by
    rw [← Int.cast_abs]
    exact_mod_cast Iff.rfl
  rw [← hi, ← hb]
  constructor
  · intro hr
    by_contra hlt
    rw [h4 (not_le.1 hlt)] at hr
    split_ifs at hr <;> cases hr
  · intro hge
    rw [h3 hge]
    have hs : (q < 0) ↔ n < 0 := by
      have h0 : InFormat 53 (-1074) 0 := ⟨0, 0, by norm_num, by norm_num, by norm_num⟩
      obtain ⟨b1, b2⟩ := nearest_between hx h0
      have hq : q ≠ 0 := by
        rintro rfl
        rw [abs_zero] at hge
        exact absurd hge (by decide +kernel)
      constructor
      · intro hlt
        by_contra hc
        have : (0 : ℚ) ≤ n := by exact_mod_cast not_lt.1 hc
        linarith [b1 this]
      · intro hlt
        have : (n : ℚ) ≤ 0 := by exact_mod_cast hlt.le
        exact lt_of_le_of_ne (b2 this) hq
    simp only [hs]

/-- C123: what is stored for any other int is the int itself or one of the two floats next to it, as no float is in between. -/
theorem c123_neighbour (d : Dpt) (h : Spec.isFloat32 d.cls = true) (n : Int) (hn : |n| < 2 ^ 128 - 2 ^ 103 - 2 ^ 74) :
    ∃ r x, Dpt.encode (.int n) d = (.ok (), r) ∧ r.cls = d.cls ∧ r.decode = .ok (.fin x) ∧ InFormat 24 (-149) x ∧
      ∀ y, InFormat 24 (-149) y → (y ≤ n → y ≤ x) ∧ (n ≤ y → x ≤ y) := by
  have hx := roundBin_nearest (p := 53) (by norm_num) (-1074) (n : ℚ)
  generalize roundBin 53 (-1074) (n : ℚ) = q at hx
  have hy := roundBin_nearest (p := 24) (by norm_num) (-149) q
  generalize roundBin 24 (-149) q = x at hy
  obtain ⟨r, h1, h2, -, h4⟩ := c22_overflow d h hy
  have hn' : |(n : ℚ)| < (2 : ℚ) ^ 128 - 2 ^ 103 - 2 ^ 74 := by
    rw [← Int.cast_abs]
    exact_mod_cast hn
  have hl : (2 : ℚ) ^ 128 - 2 ^ 103 - 2 ^ 74 < 2 ^ 1024 - 2 ^ 970 := by decide +kernel
  have hf : ∀ y, InFormat 24 (-149) y → (y ≤ (n : ℚ) → y ≤ x) ∧ ((n : ℚ) ≤ y → x ≤ y) := by
    intro y hy'
    obtain ⟨a1, a2⟩ := nearest_between hx (informat_wider hy')
    obtain ⟨b1, b2⟩ := nearest_between hy hy'
    exact ⟨fun h => b1 (a1 h), fun h => b2 (a2 h)⟩
  refine ⟨r, x, by rw [(c123_double d (.inr h) n).1 _ hx (hn'.trans hl), h1], h2, ?_, hy.1, hf⟩
  rw [h4 (not_le.1 fun hge => absurd ((double_overflow hx).1 hge) (not_le.2 hn')), if_neg]
  rintro ⟨rfl, hq⟩
  have hneg : n < 0 := by
    by_contra hc
    have h0 : (0 : ℚ) ≤ n := by exact_mod_cast not_lt.1 hc
    have := (nearest_between hx ⟨0, 0, by norm_num, by norm_num, by norm_num⟩).1 h0
    linarith
  have h1' : (n : ℚ) ≤ -1 := by exact_mod_cast (by omega : n ≤ -1)
  have := (hf (-1) ⟨-1, 0, by norm_num, by norm_num, by norm_num⟩).2 h1'
  linarith

example : ∃ r, Dpt.encode (.int (2 ^ 128 - 2 ^ 103 - 1)) ⟨.valuePower, 0⟩ = (.ok (), r) ∧ r.decode = .ok (.inf false) := by
  obtain ⟨r, h1, -, h2⟩ := c123_overflow ⟨.valuePower, 0⟩ rfl (2 ^ 128 - 2 ^ 103 - 1) (by decide +kernel)
  exact ⟨r, h1, h2.2 (by decide)⟩

example : ∃ r x, Dpt.encode (.int (2 ^ 60 + 2 ^ 36 + 1)) ⟨.valuePower, 0⟩ = (.ok (), r) ∧ r.decode = .ok (.fin x) ∧ 2 ^ 60 ≤ x := by
  obtain ⟨r, x, h1, -, h2, -, h3⟩ := c123_neighbour ⟨.valuePower, 0⟩ rfl (2 ^ 60 + 2 ^ 36 + 1) (by decide)
  exact ⟨r, x, h1, h2, (h3 (2 ^ 60) ⟨1, 60, by norm_num, by norm_num, by norm_num⟩).1 (by norm_num)⟩

example : ∃ r, Dpt.encode (.int (2 ^ 24 + 1)) ⟨.valuePower, 0⟩ = (.ok (), r) ∧ r.cls = .valuePower ∧
    r.decode = .ok (.fin (2 ^ 24)) :=
  c123_nearest_partial ⟨.valuePower, 0⟩ rfl (2 ^ 24 + 1) (by norm_num) ((roundBin_iff (by norm_num)).2 (by decide +kernel))

example : Dpt.encode (.int 21) ⟨.valuePower, 0⟩ = Dpt.encode (.float (.fin 21)) ⟨.valuePower, 0⟩ :=
  (c123_double _ (.inr rfl) 21).1 21 ((roundBin_iff (by norm_num)).2 (by decide +kernel)) (by decide +kernel)

example : Dpt.encode (.int (-(2 ^ 1024))) ⟨.valuePower, 7⟩ = (.error .overflowError, ⟨.valuePower, 7⟩) :=
  (c123_double _ (.inr rfl) _).2 (by decide +kernel)

example : ∃ n : Int, ∃ r x y, Dpt.encode (.int n) ⟨.valuePower, 0⟩ = (.ok (), r) ∧ r.decode = .ok (.fin x) ∧
    Nearest 24 (-149) (n : ℚ) y ∧ x ≠ y := c123_refuted _ rfl

end Knx
