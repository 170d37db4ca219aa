import Verif.Props.IntEncode

/-! # C127: numbers that a 4-octet float has exactly -/

namespace Knx
open Spec

theorem nearest_self {p : Nat} {emin : Int} {q : ℚ} (h : InFormat p emin q) : Nearest p emin q q := by
  refine ⟨h, fun y _ => by rw [sub_self, abs_zero]; exact abs_nonneg _, ?_⟩
  rintro ⟨y, -, hne, he⟩
  rw [sub_self, abs_zero, abs_eq_zero, sub_eq_zero] at he
  exact absurd he hne

/-- C127: a number of the format is read back as it was written. -/
theorem c127_float (d : Dpt) (h : Spec.isFloat32 d.cls = true) {q : ℚ} (hq : InFormat 24 (-149) q) (hb : |q| < (2 : ℚ) ^ (128 : ℕ)) :
    ∃ r, Dpt.encode (.float (.fin q)) d = (.ok (), r) ∧ r.cls = d.cls ∧ r.decode = .ok (.fin q) := by
  obtain ⟨r, h1, -, h3, h4⟩ := c22_nearest d h (nearest_self hq) hb
  refine ⟨r, h1, h3, ?_⟩
  rw [h4, if_neg]
  rintro ⟨h0, hn⟩
  linarith

/-- 21.5 is 43 halves. -/
example : ∃ r, Dpt.encode (.float (.fin (43 / 2))) ⟨.valuePower, 7⟩ = (.ok (), r) ∧ r.cls = .valuePower ∧ r.decode = .ok (.fin (43 / 2)) :=
  c127_float ⟨.valuePower, 7⟩ rfl ⟨43, -1, by norm_num, by norm_num, by norm_num⟩ (by norm_num [abs_of_pos])

/-- C127: so is an int of the format, though it is made a double first. -/
theorem c127_int (d : Dpt) (h : Spec.isFloat32 d.cls = true) {n : Int} (hn : InFormat 24 (-149) (n : ℚ)) (hb : |n| < 2 ^ 128) :
    ∃ r, Dpt.encode (.int n) d = (.ok (), r) ∧ r.cls = d.cls ∧ r.decode = .ok (.fin n) := by
  have hb' : |(n : ℚ)| < (2 : ℚ) ^ (128 : ℕ) := by exact_mod_cast hb
  have hl : (2 : ℚ) ^ 128 < 2 ^ 1024 - 2 ^ 970 := by decide +kernel
  rw [(c123_double d (.inr h) n).1 _ (nearest_self (informat_wider hn)) (hb'.trans hl)]
  exact c127_float d h hn hb'

/-- A large int of few digits. -/
example : ∃ r, Dpt.encode (.int (3 * 2 ^ 100)) ⟨.valuePower, 7⟩ = (.ok (), r) ∧ r.cls = .valuePower ∧
    r.decode = .ok (.fin ((3 * 2 ^ 100 : Int) : ℚ)) :=
  c127_int ⟨.valuePower, 7⟩ rfl ⟨3, 100, by norm_num, by norm_num, by norm_num⟩ (by norm_num)

/-- C127: nothing but numbers of the format is ever read. -/
theorem c127_only (d : Dpt) (h : Spec.isFloat32 d.cls = true) {q : ℚ} (hd : d.decode = .ok (.fin q)) :
    InFormat 24 (-149) q ∧ |q| < (2 : ℚ) ^ (128 : ℕ) := by
  replace h := kind_float32.1 h
  unfold Dpt.decode at hd
  rw [h] at hd
  have hs : getField 31 1 d.raw < 2 := Nat.mod_lt _ (by norm_num)
  have he : getField 23 8 d.raw < 256 := Nat.mod_lt _ (by norm_num)
  have hm : getField 0 23 d.raw < 2 ^ 23 := Nat.mod_lt _ (by norm_num)
  have hd' : decode32 d.raw = .fin q := Except.ok.inj hd
  clear hd
  unfold decode32 at hd'
  simp only at hd'
  generalize getField 31 1 d.raw = s at *
  generalize getField 23 8 d.raw = e at *
  generalize getField 0 23 d.raw = m at *
  by_cases he5 : e = 255
  · rw [if_pos he5] at hd'
    split_ifs at hd'
  rw [if_neg he5] at hd'
  have hv := val32_lt (e := e) (m := m) (by omega) hm
  have hn := val32_nonneg e m
  have hf : ∃ k : Nat, k < 2 ^ 24 ∧ ∃ x : Int, -149 ≤ x ∧ val32 e m = (k : ℚ) * (2 : ℚ) ^ x := by
    unfold val32
    split_ifs with h0
    · exact ⟨m, by omega, -149, le_refl _, rfl⟩
    · exact ⟨2 ^ 23 + m, by omega, (e : Int) - 150, by omega, rfl⟩
  have hval : (if e = 0 then (m : ℚ) * (2 : ℚ) ^ (-149 : Int) else ((2 ^ 23 + m : Nat) : ℚ) * (2 : ℚ) ^ ((e : Int) - 150)) = val32 e m := rfl
  rw [hval] at hd'
  obtain ⟨k, hk, x, hx, hkx⟩ := hf
  have hq : q = val32 e m ∨ q = -val32 e m := by
    split_ifs at hd' <;> cases hd'
    · exact .inr rfl
    · exact .inl rfl
  rcases hq with rfl | rfl
  · refine ⟨⟨k, x, ?_, hx, by rw [hkx]; push_cast; rfl⟩, by rwa [abs_of_nonneg hn]⟩
    rw [abs_of_nonneg (by omega)]
    exact_mod_cast hk
  · refine ⟨⟨-(k : Int), x, ?_, hx, by rw [hkx]; push_cast; ring⟩, by rwa [abs_neg, abs_of_nonneg hn]⟩
    rw [abs_neg, abs_of_nonneg (by omega)]
    exact_mod_cast hk

/-- The power after the largest number is never read. -/
example (raw : Nat) : (⟨.valuePower, raw⟩ : Dpt).decode ≠ .ok (.fin (2 ^ 128)) := by
  intro hd
  have := (c127_only ⟨.valuePower, raw⟩ rfl hd).2
  rw [abs_of_pos (by positivity)] at this
  exact lt_irrefl _ this

/-- C127: different octets are different numbers, infinities or zeros, unless they are not a number. -/
theorem c127_unique (d d' : Dpt) (h : Spec.isFloat32 d.cls = true) (h' : Spec.isFloat32 d'.cls = true) (hw : d.Wf) (hw' : d'.Wf)
    {f : PyFloat} (hf : f ≠ .nan) (hd : d.decode = .ok f) (hd' : d'.decode = .ok f) : d.raw = d'.raw := by
  have key : ∀ x : Dpt, Spec.isFloat32 x.cls = true → x.decode = .ok f → x.raw / 2 ^ 23 % 256 ≠ 255 ∨ x.raw % 2 ^ 23 = 0 := by
    intro x hx hxd
    by_contra hc
    push Not at hc
    replace hx := kind_float32.1 hx
    unfold Dpt.decode at hxd
    rw [hx] at hxd
    have e1 : getField 23 8 x.raw = 255 := hc.1
    have e2 : getField 0 23 x.raw ≠ 0 := by
      unfold getField
      rw [pow_zero, Nat.div_one]
      exact hc.2
    have : decode32 x.raw = .nan := by
      unfold decode32
      simp only [e1, if_true, if_neg e2]
    rw [this] at hxd
    cases hxd
    exact hf rfl
  obtain ⟨g, a1, a2⟩ := c22_roundtrip d d h h hw (key d h hd)
  obtain ⟨g', b1, b2⟩ := c22_roundtrip d' d h' h hw' (key d' h' hd')
  rw [hd] at a1
  rw [hd'] at b1
  cases a1
  cases b1
  rw [a2] at b2
  have := congrArg (fun x => x.2.raw) b2
  exact this

example {raw : Nat} (hw : raw < 2 ^ 32) (h : (⟨.valuePower, raw⟩ : Dpt).decode = (⟨.valuePower, 0x41AC0000⟩ : Dpt).decode) : raw = 0x41AC0000 := by
  have hd : (⟨.valuePower, 0x41AC0000⟩ : Dpt).decode = .ok (.fin (43 / 2)) := by decide +kernel
  exact c127_unique (f := .fin (43 / 2)) ⟨.valuePower, raw⟩ ⟨.valuePower, 0x41AC0000⟩ rfl rfl hw (by unfold Dpt.Wf; decide) nofun (h.trans hd) hd

end Knx
