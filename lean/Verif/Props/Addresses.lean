import Verif.Lemmas.Bits
import Verif.Model.Address

/-! # C04: group address notations -/

namespace Knx

theorem ofFree_toNat (n : Int) : ((ofFree n).toNat : Int) = n % 65536 := by
  unfold ofFree
  have h := trunc_lt 16 n
  rw [BitVec.toNat_ofNat, Nat.mod_eq_of_lt h, trunc_cast]
  norm_num

theorem ofThree_toNat (main middle sub : Int) :
    ((ofThree main middle sub).toNat : Int) = (main % 32) * 2048 + (middle % 8) * 256 + sub % 256 := by
  unfold ofThree
  have h1 := trunc_lt 5 main
  have h2 := trunc_lt 3 middle
  have h3 := trunc_lt 8 sub
  have c1 := trunc_cast 5 main
  have c2 := trunc_cast 3 middle
  have c3 := trunc_cast 8 sub
  norm_num at c1 c2 c3 h1 h2 h3
  rw [BitVec.toNat_ofNat]
  simp only [setField_eq]
  rw [← c1, ← c2, ← c3]
  omega

theorem ofTwo_toNat (main sub : Int) :
    ((ofTwo main sub).toNat : Int) = (main % 32) * 2048 + sub % 2048 := by
  unfold ofTwo
  have h1 := trunc_lt 5 main
  have h3 := trunc_lt 11 sub
  have c1 := trunc_cast 5 main
  have c3 := trunc_cast 11 sub
  norm_num at c1 c3 h1 h3
  rw [BitVec.toNat_ofNat]
  simp only [setField_eq]
  rw [← c1, ← c3]
  omega

/-- C04: whatever integers are supplied, the address is the number written by the components, each reduced to its
width. -/
theorem c04_build (main middle sub free : Int) :
    ((ofFree free).toNat : Int) = free % 65536 ∧
    ((ofThree main middle sub).toNat : Int) = (main % 32) * 2048 + (middle % 8) * 256 + sub % 256 ∧
    ((ofTwo main sub).toNat : Int) = (main % 32) * 2048 + sub % 2048 :=
  ⟨ofFree_toNat free, ofThree_toNat main middle sub, ofTwo_toNat main sub⟩

/-- C04: the components read from an address are in range and write its number. -/
theorem c04_read (a : BitVec 16) :
    (toThree a).main < 32 ∧ (toThree a).middle < 8 ∧ (toThree a).sub < 256 ∧
    (toTwo a).main < 32 ∧ (toTwo a).sub < 2048 ∧
    (toThree a).main * 2048 + (toThree a).middle * 256 + (toThree a).sub = a.toNat ∧
    (toTwo a).main * 2048 + (toTwo a).sub = a.toNat := by
  have h := a.isLt
  unfold toThree toTwo getField
  simp only
  omega

/-- C04: an in-range three-level address is read back component by component, and agrees with the free and the
two-level notation of the same number. -/
theorem c04_three (main middle sub : Nat) (h1 : main < 32) (h2 : middle < 8) (h3 : sub < 256) :
    toThree (ofThree main middle sub) = ⟨main, middle, sub⟩ ∧
    toTwo (ofThree main middle sub) = ⟨main, middle * 256 + sub⟩ ∧
    ofThree main middle sub = ofFree (main * 2048 + middle * 256 + sub) ∧
    ofThree main middle sub = ofTwo main (middle * 256 + sub) := by
  have e : (ofThree main middle sub).toNat = main * 2048 + middle * 256 + sub := by
    have := ofThree_toNat main middle sub
    omega
  refine ⟨?_, ?_, ?_, ?_⟩
  · obtain ⟨r1, r2, r3, -, -, r6, -⟩ := c04_read (ofThree main middle sub)
    rcases hx : toThree (ofThree main middle sub) with ⟨a, b, c⟩
    rw [hx, e] at r6
    rw [hx] at r1 r2 r3
    simp only [ThreeLevel.mk.injEq]
    simp only at r1 r2 r3 r6
    omega
  · obtain ⟨-, -, -, r4, r5, -, r7⟩ := c04_read (ofThree main middle sub)
    rcases hx : toTwo (ofThree main middle sub) with ⟨a, b⟩
    rw [hx, e] at r7
    rw [hx] at r4 r5
    simp only [TwoLevel.mk.injEq]
    simp only at r4 r5 r7
    omega
  · have f := ofFree_toNat (main * 2048 + middle * 256 + sub)
    apply BitVec.eq_of_toNat_eq
    rw [e]
    omega
  · have t := ofTwo_toNat main (middle * 256 + sub)
    apply BitVec.eq_of_toNat_eq
    rw [e]
    omega

example : toThree (ofThree (1 : Nat) (3 : Nat) (110 : Nat)) = ⟨1, 3, 110⟩ :=
  (c04_three 1 3 110 (by decide) (by decide) (by decide)).1

/-- C04: an in-range two-level address is read back component by component, and agrees with the free notation of
the same number. -/
theorem c04_two (main sub : Nat) (h1 : main < 32) (h3 : sub < 2048) :
    toTwo (ofTwo main sub) = ⟨main, sub⟩ ∧
    toThree (ofTwo main sub) = ⟨main, sub / 256, sub % 256⟩ ∧
    ofTwo main sub = ofFree (main * 2048 + sub) := by
  have e : (ofTwo main sub).toNat = main * 2048 + sub := by
    have := ofTwo_toNat main sub
    omega
  refine ⟨?_, ?_, ?_⟩
  · obtain ⟨-, -, -, r4, r5, -, r7⟩ := c04_read (ofTwo main sub)
    rcases hx : toTwo (ofTwo main sub) with ⟨a, b⟩
    rw [hx, e] at r7
    rw [hx] at r4 r5
    simp only [TwoLevel.mk.injEq]
    simp only at r4 r5 r7
    omega
  · obtain ⟨r1, r2, r3, -, -, r6, -⟩ := c04_read (ofTwo main sub)
    rcases hx : toThree (ofTwo main sub) with ⟨a, b, c⟩
    rw [hx, e] at r6
    rw [hx] at r1 r2 r3
    simp only [ThreeLevel.mk.injEq]
    simp only at r1 r2 r3 r6
    omega
  · have f := ofFree_toNat (main * 2048 + sub)
    apply BitVec.eq_of_toNat_eq
    rw [e]
    omega

example : toThree (ofTwo (1 : Nat) (878 : Nat)) = ⟨1, 3, 110⟩ := (c04_two 1 878 (by decide) (by decide)).2.1

/-- C04: reading an address in any notation and building it again gives the same address. -/
theorem c04_rebuild (a : BitVec 16) :
    ofThree (toThree a).main (toThree a).middle (toThree a).sub = a ∧
    ofTwo (toTwo a).main (toTwo a).sub = a ∧
    ofFree a.toNat = a := by
  have r := c04_read a
  have h := a.isLt
  refine ⟨?_, ?_, ?_⟩
  · have e := ofThree_toNat (toThree a).main (toThree a).middle (toThree a).sub
    apply BitVec.eq_of_toNat_eq
    omega
  · have e := ofTwo_toNat (toTwo a).main (toTwo a).sub
    apply BitVec.eq_of_toNat_eq
    omega
  · have e := ofFree_toNat a.toNat
    apply BitVec.eq_of_toNat_eq
    omega

/-- C04: two addresses compare equal exactly when their components agree, in either notation. -/
theorem c04_eq (a b : Addr) :
    (a.eq b = true ↔ toThree a.fs = toThree b.fs) ∧ (a.eq b = true ↔ toTwo a.fs = toTwo b.fs) ∧
    (a.eq b = true ↔ a.fs.toNat = b.fs.toNat) := by
  have ra := c04_rebuild a.fs
  have rb := c04_rebuild b.fs
  unfold Addr.eq
  rw [beq_iff_eq]
  refine ⟨⟨fun h => by rw [h], fun h => ?_⟩, ⟨fun h => by rw [h], fun h => ?_⟩, ⟨fun h => by rw [h], fun h => ?_⟩⟩
  · rw [← ra.1, ← rb.1, h]
  · rw [← ra.2.1, ← rb.2.1, h]
  · exact BitVec.eq_of_toNat_eq h

example : (⟨0, 0x0B6E⟩ : Addr).eq ⟨1, ofThree 1 3 110⟩ = true := ((c04_eq _ _).2.2).2 (by decide)

end Knx
