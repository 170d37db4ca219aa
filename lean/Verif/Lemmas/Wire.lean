import Verif.Spec.Frames
import Verif.Lemmas.Bits
import Mathlib.Tactic.IntervalCases

/-! # Octets on the wire -/

namespace Knx
open Spec

theorem octetOf_ofNat (n : Nat) : octetOf (n : Int) = BitVec.ofNat 8 n := by
  unfold octetOf byte
  rw [trunc_ofNat]
  apply BitVec.eq_of_toNat_eq
  simp

theorem setField_zero_toNat {off : Nat} {b : Byte} {v : Nat} :
    setField off 8 b.toNat v = v / 2 ^ (off + 8) * 2 ^ (off + 8) + b.toNat * 2 ^ off + v % 2 ^ off := by
  unfold setField
  rw [trunc_of_lt (by simpa using b.isLt)]

theorem shortOf_eq (a b : Byte) : shortOf a b = a.toNat * 256 + b.toNat := by
  have ha := a.isLt
  have hb := b.isLt
  unfold shortOf
  rw [setField_zero_toNat, setField_zero_toNat]
  omega

theorem longOf_eq (a b c d : Byte) :
    longOf a b c d = ((a.toNat * 256 + b.toNat) * 256 + c.toNat) * 256 + d.toNat := by
  have ha := a.isLt
  have hb := b.isLt
  have hc := c.isLt
  have hd := d.isLt
  unfold longOf
  rw [setField_zero_toNat, setField_zero_toNat, setField_zero_toNat, setField_zero_toNat]
  omega

theorem shortOf_lt (a b : Byte) : shortOf a b < 65536 := by
  have ha := a.isLt
  have hb := b.isLt
  rw [shortOf_eq]; omega

theorem octetsOf_length (k n : Nat) : (octetsOf k n).length = k := by
  induction k with
  | zero => rfl
  | succ k ih => simp [octetsOf, ih]

theorem octetsOf_one (n : Nat) : octetsOf 1 n = [BitVec.ofNat 8 n] := by simp [octetsOf]

theorem octetsOf_two (n : Nat) : octetsOf 2 n = [BitVec.ofNat 8 (n / 256), BitVec.ofNat 8 n] := by simp [octetsOf]

theorem octetsOf_four (n : Nat) : octetsOf 4 n =
    [BitVec.ofNat 8 (n / 16777216), BitVec.ofNat 8 (n / 65536), BitVec.ofNat 8 (n / 256), BitVec.ofNat 8 n] := by
  simp [octetsOf]

theorem shortOctets_ofNat (n : Nat) : shortOctets (n : Int) = octetsOf 2 n := by
  unfold shortOctets
  rw [octetsOf_two, trunc_ofNat]
  unfold getField byte
  congr 1
  · apply BitVec.eq_of_toNat_eq; simp; omega
  · congr 1
    apply BitVec.eq_of_toNat_eq; simp

theorem longOctets_ofNat (n : Nat) : longOctets (n : Int) = octetsOf 4 n := by
  unfold longOctets
  rw [octetsOf_four, trunc_ofNat]
  unfold getField byte
  refine congrArg₂ _ ?_ (congrArg₂ _ ?_ (congrArg₂ _ ?_ (congrArg₂ _ ?_ rfl))) <;>
    (apply BitVec.eq_of_toNat_eq; simp; try omega)

theorem short_octetsOf {n : Nat} (h : n < 65536) (m : Msg) : short (octetsOf 2 n ++ m) = .ok (n, m) := by
  rw [octetsOf_two]
  simp only [List.cons_append, List.nil_append, short, shortOf_eq]
  congr 2
  simp only [BitVec.toNat_ofNat]
  omega

theorem long_octetsOf {n : Nat} (h : n < 4294967296) (m : Msg) : long (octetsOf 4 n ++ m) = .ok (n, m) := by
  rw [octetsOf_four]
  simp only [List.cons_append, List.nil_append, long, longOf_eq]
  congr 2
  simp only [BitVec.toNat_ofNat]
  omega

theorem number_append (a b : Msg) : number (a ++ b) = number a * 256 ^ b.length + number b := by
  unfold number
  rw [List.foldl_append]
  generalize a.foldl (fun n b => 256 * n + b.toNat) 0 = x
  induction b generalizing x with
  | nil => simp
  | cons c b ih =>
    simp only [List.foldl_cons, List.length_cons]
    rw [ih, ih (256 * 0 + c.toNat), pow_succ]
    ring

theorem number_octetsOf (k n : Nat) : number (octetsOf k n) = n % 256 ^ k := by
  induction k with
  | zero => simp [octetsOf, number, Nat.mod_one]
  | succ k ih =>
    have : octetsOf (k + 1) n = [BitVec.ofNat 8 (n / 256 ^ k)] ++ octetsOf k n := rfl
    rw [this, number_append, ih, octetsOf_length]
    simp only [number, List.foldl_cons, List.foldl_nil, BitVec.toNat_ofNat, mul_zero, zero_add]
    rw [show (256 : Nat) ^ (k + 1) = 256 ^ k * 256 from pow_succ _ _, Nat.mod_mul (x := n),
      show (2 ^ 8 : Nat) = 256 from rfl]
    ring

theorem beLoop_eq (v : Nat) (h : Byte) (m : Msg) :
    beLoop v h m = (h :: m).foldl (fun n b => 256 * n + b.toNat) v := by
  induction m generalizing v h with
  | nil => simp [beLoop]; ring
  | cons b m ih =>
    rw [beLoop, ih]
    simp only [List.foldl_cons]
    congr 3
    ring

theorem beValue_eq {m : Msg} (h : m ≠ []) : beValue m = .ok (number m) := by
  cases m with
  | nil => exact absurd rfl h
  | cons b m =>
    unfold beValue number
    simp only [octect, beLoop_eq]

/-! Telegrams -/

/-- The link frame a telegram is parsed into. -/
def ldataOf (t : Telegram) : LData :=
  { cntrl1 := t.ctrl1, cntrl2 := t.ctrl2, source := t.source, destination := t.destination,
    npduLength := t.length, tpci := t.tpci, apci := t.apci }

theorem octets_eq (t : Telegram) : t.octets =
    t.ctrl1 :: t.ctrl2 :: (octetsOf 2 t.source.toNat ++ (octetsOf 2 t.destination.toNat ++
      (t.length :: t.tpci :: t.apci :: t.rest))) := by
  simp [Telegram.octets]

theorem makeFrom_octets (t : Telegram) :
    LData.makeFrom t.octets = .ok (ldataOf t, if t.rest = [] then [t.apci] else t.rest) := by
  rw [octets_eq]
  unfold LData.makeFrom
  simp only [octect]
  rw [short_octetsOf t.source.isLt]
  simp only
  rw [short_octetsOf t.destination.isLt]
  simp only [BitVec.ofNat_toNat, BitVec.setWidth_eq]
  rfl

theorem octets_length (t : Telegram) : t.octets.length = 9 + t.rest.length := by
  rw [octets_eq]; simp [octetsOf_length]; omega

theorem cemi_length (code : Byte) (info : Msg) (t : Telegram) :
    (cemi code info t).length = 11 + info.length + t.rest.length := by
  unfold cemi
  simp [octets_length]; omega

/-- Opening a cEMI frame. -/
theorem msgCode_cemi {code : Byte} {info : Msg} (t : Telegram) (hi : info.length < 256) (s : State) :
    msgCodeDecode (cemi code info t) s =
      if code.toNat = 0x29 then cemiLdataDecode .ind t.octets s
      else if code.toNat = 0x2E then cemiLdataDecode .con t.octets s
      else (.ok (.list []), s) := by
  unfold msgCodeDecode cemi
  simp only [List.cons_append, List.nil_append, octect, BitVec.toNat_ofNat]
  rw [Nat.mod_eq_of_lt (by simpa using hi), List.drop_left]
  split
  · rfl
  · split <;> rfl

/-- Opening a USB report. -/
theorem usb_open {m : Msg} (hl : m.length + 8 < 256) (pad : Msg) (s : State) :
    reportIdDecode (usbReport m ++ pad) s = msgCodeDecode m s := by
  unfold usbReport reportIdDecode
  simp only [List.append_assoc, List.cons_append, List.nil_append, octect]
  rw [if_pos (by decide)]
  unfold packetInfoDecode
  simp only [octect]
  rw [if_pos (by decide)]
  simp only [BitVec.toNat_ofNat]
  rw [Nat.mod_eq_of_lt (by omega)]
  unfold protocolVersionDecode
  simp only [List.take_succ_cons, octect]
  rw [if_pos (by decide)]
  unfold headerLengthDecode
  simp only [octect]
  rw [if_pos (by decide)]
  rw [octetsOf_two]
  simp only [List.cons_append, List.nil_append, List.take_succ_cons]
  unfold bodyLengthDecode
  have hs : ∀ x : Msg, short (BitVec.ofNat 8 (m.length / 256) :: BitVec.ofNat 8 m.length :: x) = .ok (m.length, x) := by
    intro x
    have := short_octetsOf (n := m.length) (by omega) x
    rwa [octetsOf_two] at this
  rw [hs]
  simp only [List.take_succ_cons]
  unfold protocolIdDecode
  simp only [octect]
  rw [if_pos (by decide)]
  unfold emiIdDecode
  simp only [octect]
  rw [if_pos (by decide)]
  rw [show short ((0x00 : Byte) :: 0x00 :: List.take m.length (List.take m.length (m ++ pad)))
    = .ok (0, List.take m.length (List.take m.length (m ++ pad))) from by
      simp only [short, shortOf_eq]; rfl]
  simp only [if_true, List.take_left, List.take_length]

/-- Opening a tunnelling request with the expected counter. -/
theorem ip_open {chan seq : Byte} (m : Msg) {s : State} (hs : s.seqRemote = seq.toNat) :
    ipHeaderDecode (tunnelRequest chan seq m) s =
      match msgCodeDecode m s with
      | (.error e, s') => (.error e, s')
      | (.ok r, s') => (.ok (.list (extend [.tunnelingReq seq.toNat .noError] r)), s') := by
  unfold tunnelRequest ipHeaderDecode
  simp only [List.append_assoc, List.cons_append, List.nil_append, octect]
  rw [octetsOf_two]
  simp only [List.cons_append, List.nil_append, short, shortOf_eq]
  rw [if_pos (by decide), if_neg (by decide), if_neg (by decide), if_neg (by decide), if_neg (by decide),
    if_pos (by decide)]
  unfold tunnelingReqDecode
  simp only [short, connHeader, octect]
  rw [if_pos hs]
  rfl

end Knx
