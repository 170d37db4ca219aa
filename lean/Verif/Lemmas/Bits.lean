import Verif.Model.LData
import Mathlib.Tactic.Ring
import Mathlib.Tactic.Linarith
import Mathlib.Tactic.NormNum

/-! # Laws of bit fields -/

namespace Knx

theorem trunc_lt (w : Nat) (x : Int) : trunc w x < 2 ^ w := by
  unfold trunc
  have h : (0 : Int) < ((2 ^ w : Nat) : Int) := by exact_mod_cast Nat.two_pow_pos w
  have h1 := Int.emod_nonneg x h.ne'
  have h2 := Int.emod_lt_of_pos x h
  omega

theorem trunc_ofNat (w n : Nat) : trunc w (n : Int) = n % 2 ^ w := by
  unfold trunc
  rw [← Int.natCast_emod]
  exact Int.toNat_natCast _

theorem trunc_of_lt {w n : Nat} (h : n < 2 ^ w) : trunc w (n : Int) = n := by
  rw [trunc_ofNat, Nat.mod_eq_of_lt h]

theorem trunc_cast (w : Nat) (x : Int) : ((trunc w x : Nat) : Int) = x % (2 ^ w : Nat) := by
  unfold trunc
  have h : (0 : Int) < ((2 ^ w : Nat) : Int) := by exact_mod_cast Nat.two_pow_pos w
  exact Int.toNat_of_nonneg (Int.emod_nonneg x h.ne')

theorem getField_lt (off w v : Nat) : getField off w v < 2 ^ w := Nat.mod_lt _ (Nat.two_pow_pos w)

theorem getField_eq (off w v : Nat) : getField off w v = v % 2 ^ (off + w) / 2 ^ off := by
  unfold getField
  rw [pow_add, Nat.mod_mul_right_div_self]

theorem setField_div (off w : Nat) (x : Int) (v : Nat) :
    setField off w x v / 2 ^ (off + w) = v / 2 ^ (off + w) := by
  have ht := trunc_lt w x
  have hA := Nat.two_pow_pos off
  have hm : v % 2 ^ off < 2 ^ off := Nat.mod_lt _ hA
  have hlt : trunc w x * 2 ^ off + v % 2 ^ off < 2 ^ (off + w) := by
    rw [pow_add]; nlinarith
  unfold setField
  rw [Nat.add_assoc, Nat.add_comm, Nat.add_mul_div_right _ _ (Nat.two_pow_pos _), Nat.div_eq_of_lt hlt]
  simp

theorem setField_mod (off w : Nat) (x : Int) (v : Nat) :
    setField off w x v % 2 ^ off = v % 2 ^ off := by
  unfold setField
  have : v / 2 ^ (off + w) * 2 ^ (off + w) + trunc w x * 2 ^ off + v % 2 ^ off
      = v % 2 ^ off + 2 ^ off * (v / 2 ^ (off + w) * 2 ^ w + trunc w x) := by
    rw [pow_add]; ring
  rw [this, Nat.add_mul_mod_self_left, Nat.mod_mod]

theorem setField_div_off (off w : Nat) (x : Int) (v : Nat) :
    setField off w x v / 2 ^ off = v / 2 ^ (off + w) * 2 ^ w + trunc w x := by
  unfold setField
  have hm : v % 2 ^ off < 2 ^ off := Nat.mod_lt _ (Nat.two_pow_pos off)
  have : v / 2 ^ (off + w) * 2 ^ (off + w) + trunc w x * 2 ^ off + v % 2 ^ off
      = v % 2 ^ off + 2 ^ off * (v / 2 ^ (off + w) * 2 ^ w + trunc w x) := by
    rw [pow_add]; ring
  rw [this, Nat.add_mul_div_left _ _ (Nat.two_pow_pos off), Nat.div_eq_of_lt hm, Nat.zero_add]

/-- Reading a field just written. -/
theorem getField_setField_same (off w : Nat) (x : Int) (v : Nat) :
    getField off w (setField off w x v) = trunc w x := by
  unfold getField
  rw [setField_div_off, Nat.mul_add_mod_self_right, Nat.mod_eq_of_lt (trunc_lt w x)]

/-- Reading a field that lies below or above the one written. -/
theorem getField_setField_disjoint {off w off' w' : Nat} (h : off + w ≤ off' ∨ off' + w' ≤ off) (x : Int) (v : Nat) :
    getField off' w' (setField off w x v) = getField off' w' v := by
  rcases h with h | h
  · obtain ⟨k, rfl⟩ := Nat.exists_eq_add_of_le h
    unfold getField
    rw [pow_add 2 (off + w) k, ← Nat.div_div_eq_div_mul, ← Nat.div_div_eq_div_mul, setField_div]
  · obtain ⟨k, hk⟩ := Nat.exists_eq_add_of_le h
    rw [getField_eq, getField_eq]
    have : ∀ n, n % 2 ^ (off' + w') = n % 2 ^ off % 2 ^ (off' + w') := by
      intro n
      rw [Nat.mod_mod_of_dvd]
      rw [hk, pow_add 2 (off' + w') k]
      exact Dvd.intro _ rfl
    rw [this (setField off w x v), setField_mod, ← this]

/-- Writing a field keeps the value within its width. -/
theorem setField_lt {off w n v : Nat} (hn : off + w ≤ n) (hv : v < 2 ^ n) (x : Int) :
    setField off w x v < 2 ^ n := by
  obtain ⟨k, rfl⟩ := Nat.exists_eq_add_of_le hn
  rw [pow_add 2 (off + w) k] at *
  have hv' := Nat.div_lt_of_lt_mul hv
  have h0 := Nat.two_pow_pos (off + w)
  rw [← setField_div off w x v] at hv'
  rw [mul_comm]
  exact (Nat.div_lt_iff_lt_mul h0).1 hv'

/-- Writing back the value of a field changes nothing. -/
theorem setField_getField (off w v : Nat) : setField off w (getField off w v : Nat) v = v := by
  unfold setField
  rw [trunc_of_lt (getField_lt off w v)]
  unfold getField
  have h1 := Nat.div_add_mod v (2 ^ off)
  have h2 := Nat.div_add_mod (v / 2 ^ off) (2 ^ w)
  rw [Nat.div_div_eq_div_mul, ← pow_add] at h2
  have : v / 2 ^ (off + w) * 2 ^ (off + w) = 2 ^ off * (2 ^ w * (v / 2 ^ (off + w))) := by
    rw [pow_add]; ring
  rw [this]
  calc _ = 2 ^ off * (2 ^ w * (v / 2 ^ (off + w)) + v / 2 ^ off % 2 ^ w) + v % 2 ^ off := by ring
    _ = v := by rw [h2, h1]

/-- The value with a field cut out, in terms of the parts above and below. -/
theorem setField_eq (off w : Nat) (x : Int) (v : Nat) :
    setField off w x v = v / 2 ^ (off + w) * 2 ^ (off + w) + trunc w x * 2 ^ off + v % 2 ^ off := rfl

theorem setField_congr {off w : Nat} {x y : Int} (h : trunc w x = trunc w y) (v : Nat) :
    setField off w x v = setField off w y v := by
  unfold setField; rw [h]

@[simp] theorem byte_toNat (n : Nat) : (byte n).toNat = n % 256 := by simp [byte]

theorem byte_toNat_self (b : Byte) : byte b.toNat = b := by simp [byte]

theorem getB_lt (off w : Nat) (b : Byte) : getB off w b < 2 ^ w := getField_lt _ _ _

theorem getB_setB_same {off w : Nat} (h : off + w ≤ 8) (x : Int) (b : Byte) :
    getB off w (setB off w x b) = trunc w x := by
  have := setField_lt h b.isLt x
  unfold getB setB
  rw [byte_toNat, Nat.mod_eq_of_lt (by simpa using this), getField_setField_same]

theorem getB_setB_disjoint {off w off' w' : Nat} (h : off + w ≤ 8) (hd : off + w ≤ off' ∨ off' + w' ≤ off) (x : Int)
    (b : Byte) : getB off' w' (setB off w x b) = getB off' w' b := by
  have := setField_lt h b.isLt x
  unfold getB setB
  rw [byte_toNat, Nat.mod_eq_of_lt (by simpa using this), getField_setField_disjoint hd]

end Knx
