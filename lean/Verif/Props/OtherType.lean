import Verif.Props.RequestTexts
import Verif.Props.TwoDevices

/-!
# C93 Datapoints of another type than the registered one
-/

namespace Knx

open Spec

/-- C93 is false for every other type: a write becomes the frame that the same number in the registered type becomes, or
raises what that raises; the class of the datapoint is not looked at. -/
theorem c93_refuted (s : State) (asap : Asap) (n : Nat) (c c' : DptClass) :
    encodeMsg (.groupWriteReq asap ⟨c', n⟩) s = encodeMsg (.groupWriteReq asap ⟨c, n⟩) s ∧
      encodeMsg (.groupWriteInd asap ⟨c', n⟩) s = encodeMsg (.groupWriteInd asap ⟨c, n⟩) s :=
  ⟨rfl, rfl⟩

/-- A temperature written to a switch. -/
example : (encodeMsg (.groupWriteReq ⟨3, none⟩ ⟨.valueTemp, 0x0C1B⟩) (exState .usbHid)).1 =
    .ok (usbReport (cemi 0x11 [] (writeTelegram 0x0E89 .switch 0x1B))) := by
  rw [(c93_refuted _ _ _ .switch .valueTemp).1]
  decide +kernel

/-- The bits of a number that go out for a type. -/
theorem written_bits (c : DptClass) (n n' : Nat) : writtenValue c n = writtenValue c n' ↔
    n % 2 ^ (if inApci c then 6 else 8 * octets c) = n' % 2 ^ (if inApci c then 6 else 8 * octets c) := by
  unfold writtenValue
  split_ifs
  · constructor <;> intro h <;> omega
  · rw [pow_mul]
    rfl

theorem octetsOf_congr {k n n' : Nat} (h : n % 256 ^ k = n' % 256 ^ k) : octetsOf k n = octetsOf k n' := by
  induction k with
  | zero => rfl
  | succ k ih =>
    have h1 : n % 256 ^ k = n' % 256 ^ k := by
      have := congrArg (· % 256 ^ k) h
      simpa [Nat.mod_mod_of_dvd _ (Nat.pow_dvd_pow 256 (Nat.le_succ k))] using this
    have h2 : n / 256 ^ k % 256 = n' / 256 ^ k % 256 := by
      rw [pow_succ] at h
      rw [← Nat.mod_mul_right_div_self, ← Nat.mod_mul_right_div_self, h]
    show BitVec.ofNat 8 (n / 256 ^ k) :: octetsOf k n = BitVec.ofNat 8 (n' / 256 ^ k) :: octetsOf k n'
    rw [ih h1]
    congr 1
    apply BitVec.eq_of_toNat_eq
    rw [BitVec.toNat_ofNat, BitVec.toNat_ofNat]
    exact h2

theorem written_telegram {c : DptClass} {n n' : Nat} (h : writtenValue c n = writtenValue c n') (x : BitVec 16) :
    writeTelegram x c n = writeTelegram x c n' := by
  unfold writtenValue at h
  unfold writeTelegram
  split_ifs at h ⊢ with hi
  · rw [Nat.add_left_cancel h]
  · rw [octetsOf_congr h]

/-- C93: two datapoints, of whatever types, become the same frame exactly if their numbers agree in the bits that the
registered type sends: its octets, or six bits. -/
theorem c93_frames {s : State} {a : AssocTable} {g : GroupObjectTable} {asap : Asap} {d : Dpt} {c : DptClass} {f : Msg}
    (ha : s.assoc = some a) (hg : s.got = some g) (hc : typeIn g asap.value = some c)
    (hne : addressesOf a.absDict asap.value ≠ []) (h : (encodeMsg (.groupWriteReq asap d) s).1 = .ok f) (d' : Dpt) :
    ∃ f', (encodeMsg (.groupWriteReq asap d') s).1 = .ok f' ∧
      (f' = f ↔ d'.raw % 2 ^ (if inApci c then 6 else 8 * octets c) = d.raw % 2 ^ (if inApci c then 6 else 8 * octets c)) := by
  obtain ⟨f', h1, h2⟩ := write_other ha hg hc hne h d'
  refine ⟨f', h1, fun e => (written_bits c _ _).1 (h2 e), fun e => ?_⟩
  obtain ⟨a1, g1, c1, as, ha1, hg1, hc1, hs, hx⟩ := write_frame h
  rw [ha] at ha1; cases ha1
  rw [hg] at hg1; cases hg1
  rw [hc] at hc1; cases hc1
  have hl := (send_listed hs).1
  cases as with
  | nil => exact absurd hl.symm hne
  | cons x as =>
    have hf := hx x rfl
    rw [← written_telegram ((written_bits c _ _).2 e) x] at hf
    have := write_sent ha hg hc hs hf
    rw [h1] at this
    exact Except.ok.inj this

/-- C93 is false for every datapoint with more bits than the registered type sends: another datapoint of its type, with
another number, becomes the same frame. -/
theorem c93_wide_refuted {s : State} {a : AssocTable} {g : GroupObjectTable} {asap : Asap} {d : Dpt} {c : DptClass} {f : Msg}
    (ha : s.assoc = some a) (hg : s.got = some g) (hc : typeIn g asap.value = some c)
    (hne : addressesOf a.absDict asap.value ≠ []) (h : (encodeMsg (.groupWriteReq asap d) s).1 = .ok f) (hw : d.Wf)
    (hb : (if inApci c then 6 else 8 * octets c) < 8 * octets d.cls) :
    ∃ d' : Dpt, d'.cls = d.cls ∧ d'.Wf ∧ d'.raw ≠ d.raw ∧ (encodeMsg (.groupWriteReq asap d') s).1 = .ok f := by
  refine ⟨⟨d.cls, d.raw ^^^ 2 ^ (8 * octets d.cls - 1)⟩, rfl,
    wf_iff.2 (Nat.xor_lt_two_pow (wf_iff.1 hw) (Nat.pow_lt_pow_right (by decide) (by omega))), ?_, ?_⟩
  · intro e
    have h1 := congrArg (fun n => n.testBit (8 * octets d.cls - 1)) e
    simp only [Nat.testBit_xor, Nat.testBit_two_pow_self] at h1
    cases d.raw.testBit (8 * octets d.cls - 1) <;> simp at h1
  · obtain ⟨f', h1, h2⟩ := c93_frames ha hg hc hne h ⟨d.cls, d.raw ^^^ 2 ^ (8 * octets d.cls - 1)⟩
    rw [h1, h2.2]
    apply Nat.eq_of_testBit_eq
    intro j
    simp only [Nat.testBit_mod_two_pow, Nat.testBit_xor]
    by_cases hj : j < if inApci c then 6 else 8 * octets c
    · rw [Nat.testBit_two_pow_of_ne (by omega), Bool.xor_false]
    · simp [hj]

theorem wide_fields {raw : Nat} (h : raw < 2 ^ 16) : decode32 raw = .fin ((raw : ℚ) * (2 : ℚ) ^ (-149 : Int)) := by
  have h1 : getField 31 1 raw = 0 := by unfold getField; omega
  have h2 : getField 23 8 raw = 0 := by unfold getField; omega
  have h3 : getField 0 23 raw = raw := by unfold getField; omega
  unfold decode32
  simp only [h1, h2, h3]
  simp

/-- C93 is false for every number of 16 bits sent where the 32 bit type is registered: unless all bits are zero, the receiver
reads another number (less than a millionth of a millionth). -/
theorem c93_float_refuted {d : Dpt} (h : isFloat16 d.cls = true) (hw : d.Wf) (h0 : d.raw ≠ 0) {c : DptClass}
    (hc : isFloat32 c = true) :
    ∃ x y, d.decode = .ok (.fin x) ∧ (Dpt.mk c (writtenValue c d.raw)).decode = .ok (.fin y) ∧ x ≠ y ∧ 0 < y ∧
      y < 1 / 10 ^ 12 := by
  obtain ⟨x, hx, herr, -⟩ := decode16_double d h
  have ho : octets d.cls = 2 := by
    revert h
    cases d.cls <;> simp [isFloat16, octets]
  have hlt : d.raw < 2 ^ 16 := by
    unfold Dpt.Wf at hw
    rw [ho] at hw
    exact hw
  have hk := kind_float32.1 hc
  have ho4 := octets_float32 hk
  have hi : inApci c = false := by
    revert hc
    cases c <;> simp [isFloat32, inApci]
  have hwv : writtenValue c d.raw = d.raw := by
    unfold writtenValue
    rw [hi, ho4]
    simp only [Bool.false_eq_true, if_false]
    exact Nat.mod_eq_of_lt (by omega)
  have hpos : (0 : ℚ) < (2 : ℚ) ^ (-149 : Int) := by positivity
  have h149 : (2 : ℚ) ^ (-149 : Int) < 1 / 10 ^ 40 := by
    rw [zpow_neg, ← one_div]
    apply one_div_lt_one_div_of_lt (by positivity)
    rw [show (149 : Int) = ((149 : Nat) : Int) from rfl, zpow_natCast]
    norm_num
  have hy0 : (0 : ℚ) < (d.raw : ℚ) * (2 : ℚ) ^ (-149 : Int) :=
    mul_pos (by exact_mod_cast Nat.pos_of_ne_zero h0) hpos
  have hy1 : (d.raw : ℚ) * (2 : ℚ) ^ (-149 : Int) < 1 / 10 ^ 12 := by
    have h1 : (d.raw : ℚ) < 2 ^ 16 := by exact_mod_cast hlt
    calc (d.raw : ℚ) * (2 : ℚ) ^ (-149 : Int) < 2 ^ 16 * (1 / 10 ^ 40) :=
          mul_lt_mul'' h1 h149 (by positivity) hpos.le
      _ < 1 / 10 ^ 12 := by norm_num
  refine ⟨x, (d.raw : ℚ) * (2 : ℚ) ^ (-149 : Int), hx, ?_, ?_, hy0, hy1⟩
  · unfold Dpt.decode
    simp only [hk, hwv, wide_fields hlt]
  · rintro rfl
    generalize (d.raw : ℚ) * (2 : ℚ) ^ (-149 : Int) = y at *
    by_cases hm : mantissa16 d.raw = 0
    · rw [hm] at herr
      simp at herr
      linarith
    · have h1 : (1 : ℚ) ≤ |(mantissa16 d.raw : ℚ)| := by
        have := Int.one_le_abs hm
        exact_mod_cast this
      have h2 : (1 : ℚ) / 100 ≤ |(mantissa16 d.raw : ℚ) / 100 * 2 ^ exponent16 d.raw| := by
        rw [abs_mul, abs_div, abs_of_pos (by positivity : (0 : ℚ) < 2 ^ exponent16 d.raw),
          abs_of_pos (by norm_num : (0 : ℚ) < 100)]
        have h3 : (1 : ℚ) ≤ 2 ^ exponent16 d.raw := one_le_pow₀ (by norm_num)
        calc (1 : ℚ) / 100 ≤ |(mantissa16 d.raw : ℚ)| / 100 := by linarith
          _ ≤ |(mantissa16 d.raw : ℚ)| / 100 * 2 ^ exponent16 d.raw := le_mul_of_one_le_right (by positivity) h3
      generalize (mantissa16 d.raw : ℚ) / 100 * 2 ^ exponent16 d.raw = z at *
      have h4 := abs_sub_abs_le_abs_sub z y
      rw [abs_sub_comm] at h4
      rw [abs_of_pos hy0] at h4
      have h5 : |z| / 2 ^ 52 ≤ |z| / 2 := by
        apply div_le_div_of_nonneg_left (abs_nonneg _) (by norm_num) (by norm_num)
      have h6 : (1 : ℚ) / 10 ^ 12 < 1 / 200 := by norm_num
      linarith

/-- C93 where the type is the registered one: what a receiver of the same type reads is what the datapoint reads. -/
theorem c93_partial {s : State} {asap : Asap} {d : Dpt} {f : Msg} {g : GroupObjectTable} (hg : s.got = some g)
    (h : (encodeMsg (.groupWriteReq asap d) s).1 = .ok f) (hc : typeIn g asap.value = some d.cls) (hw : d.Wf) :
    ∃ a, s.assoc = some a ∧ ∀ x, (addressesOf a.absDict asap.value).head? = some x →
      ∃ t : Telegram, envelope s (cemi 0x11 [] t) = some f ∧ t.value = writtenValue d.cls d.raw ∧
        (Dpt.mk d.cls (t.value % 256 ^ octets d.cls)).describe = d.describe := by
  obtain ⟨a, g1, c, ha, hg1, hc1, -, hx⟩ := c28_write_partial h
  rw [hg] at hg1; cases hg1
  rw [hc] at hc1; cases hc1
  refine ⟨a, ha, fun x hhead => ⟨_, hx x hhead, ?_, ?_⟩⟩
  · exact (writeTelegram_facts x d.cls d.raw).2.2.2.2.1
  · rw [(writeTelegram_facts x d.cls d.raw).2.2.2.2.1]
    exact c55_description d.cls d.raw hw

/-- Two different datapoints of different types written to the same switch become the same frame. -/
example : ∃ f', (encodeMsg (.groupWriteReq ⟨3, none⟩ ⟨.setupClima, 0x12345641⟩) (exState .usbHid)).1 = .ok f' ∧
    f' = usbReport (cemi 0x11 [] (writeTelegram 0x0E89 .switch 1)) := by
  obtain ⟨f', h1, h2⟩ := c93_frames (s := exState .usbHid) (a := (AssocTable.init exAt []).2.afterAll exOps)
    (g := exGops.foldl GroupObjectTable.after []) (asap := ⟨3, none⟩) (d := ⟨.switch, 1⟩) (c := .switch)
    (f := usbReport (cemi 0x11 [] (writeTelegram 0x0E89 .switch 1))) rfl rfl (by decide +kernel) (by decide +kernel)
    (by decide +kernel) ⟨.setupClima, 0x12345641⟩
  exact ⟨f', h1, h2.2 (by decide)⟩

example := c93_wide_refuted (s := exState .usbHid) (a := (AssocTable.init exAt []).2.afterAll exOps)
  (g := exGops.foldl GroupObjectTable.after []) (asap := ⟨3, none⟩) (d := ⟨.valueTemp, 0x0C1B⟩) (c := .switch)
  (f := usbReport (cemi 0x11 [] (writeTelegram 0x0E89 .switch 0x1B))) rfl rfl (by decide +kernel) (by decide +kernel)
  (by decide +kernel) (show (0x0C1B : Nat) < 256 ^ 2 by decide) (by decide)

/-- 21 degrees sent as a power. -/
example := c93_float_refuted (d := ⟨.valueTemp, 0x0C1A⟩) rfl (show (0x0C1A : Nat) < 256 ^ 2 by decide) (by decide)
  (c := .valuePower) rfl

example := c93_partial (s := exState .usbHid) (asap := ⟨3, none⟩) (d := ⟨.switch, 1⟩)
  (f := usbReport (cemi 0x11 [] (writeTelegram 0x0E89 .switch 1))) (g := exGops.foldl GroupObjectTable.after []) rfl
  (by decide +kernel) (by decide +kernel) (show (1 : Nat) < 256 ^ 1 by decide)

end Knx
