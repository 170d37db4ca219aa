import Verif.Model.UnitTexts
import Verif.Props.Text
import Verif.Props.Texts

/-! # C111: texts of octets, shorts, longs and link layer data -/

namespace Knx

open Spec

/-- C111: behind `0x`, the text of an octet, a short or a long is hex digits for its octets in the order in which they are sent,
so that `make_from_str` gives them back. -/
theorem c111_units (n : Int) :
    ((octectText n).take 2 = ['0', 'x'] ∧ stringToOctets ((octectText n).drop 2) = .ok [octetOf n]) ∧
    ((shortText n).take 2 = ['0', 'x'] ∧ stringToOctets ((shortText n).drop 2) = .ok (shortOctets n)) ∧
    ((longText n).take 2 = ['0', 'x'] ∧ stringToOctets ((longText n).drop 2) = .ok (longOctets n)) := by
  have h8 : trunc 8 n < 2 ^ 8 := trunc_lt 8 n
  have h16 : trunc 16 n < 2 ^ 16 := trunc_lt 16 n
  have h32 : trunc 32 n < 2 ^ 32 := trunc_lt 32 n
  refine ⟨⟨rfl, ?_⟩, ⟨rfl, ?_⟩, ⟨rfl, ?_⟩⟩
  · rw [← c01_render_parse]
    congr 1
    unfold octectText msgRepr octetOf byte
    simp only [List.drop_succ_cons, List.drop_zero, List.flatMap_cons, List.flatMap_nil, List.append_nil, BitVec.toNat_ofNat,
      Nat.mod_eq_of_lt h8]
  · rw [← c01_render_parse]
    congr 1
    unfold shortText shortOctets
    generalize trunc 16 n = v at *
    unfold msgRepr byte hex4 getField
    simp only [List.drop_succ_cons, List.drop_zero, List.flatMap_cons, List.flatMap_nil, List.append_nil, BitVec.toNat_ofNat,
      List.cons_append, List.nil_append]
    have e1 : v / 2 ^ 8 % 2 ^ 8 % 2 ^ 8 / 16 = v / 4096 := by omega
    have e2 : v / 2 ^ 8 % 2 ^ 8 % 2 ^ 8 % 16 = v / 256 % 16 := by omega
    have e3 : v / 2 ^ 0 % 2 ^ 8 % 2 ^ 8 / 16 = v / 16 % 16 := by omega
    have e4 : v / 2 ^ 0 % 2 ^ 8 % 2 ^ 8 % 16 = v % 16 := by omega
    rw [e1, e2, e3, e4]
  · rw [← c01_render_parse]
    congr 1
    unfold longText longOctets
    generalize trunc 32 n = v at *
    unfold msgRepr byte hex4 getField
    simp only [List.drop_succ_cons, List.drop_zero, List.flatMap_cons, List.flatMap_nil, List.append_nil, BitVec.toNat_ofNat,
      List.cons_append, List.nil_append]
    have e1 : v / 2 ^ 24 % 2 ^ 8 % 2 ^ 8 / 16 = v / 65536 / 4096 := by omega
    have e2 : v / 2 ^ 24 % 2 ^ 8 % 2 ^ 8 % 16 = v / 65536 / 256 % 16 := by omega
    have e3 : v / 2 ^ 16 % 2 ^ 8 % 2 ^ 8 / 16 = v / 65536 / 16 % 16 := by omega
    have e4 : v / 2 ^ 16 % 2 ^ 8 % 2 ^ 8 % 16 = v / 65536 % 16 := by omega
    have e5 : v / 2 ^ 8 % 2 ^ 8 % 2 ^ 8 / 16 = v % 65536 / 4096 := by omega
    have e6 : v / 2 ^ 8 % 2 ^ 8 % 2 ^ 8 % 16 = v % 65536 / 256 % 16 := by omega
    have e7 : v / 2 ^ 0 % 2 ^ 8 % 2 ^ 8 / 16 = v % 65536 / 16 % 16 := by omega
    have e8 : v / 2 ^ 0 % 2 ^ 8 % 2 ^ 8 % 16 = v % 65536 % 16 := by omega
    rw [e1, e2, e3, e4, e5, e6, e7, e8]

theorem cut_at {c : Char} : ∀ {a a' b b' : List Char}, c ∉ a → c ∉ a' → a ++ c :: b = a' ++ c :: b' → a = a' ∧ b = b'
  | [], [], _, _, _, _, h => ⟨rfl, (List.cons.inj h).2⟩
  | [], _ :: _, _, _, _, h', h => absurd (List.mem_cons.2 (.inl (List.cons.inj h).1)) h'
  | _ :: _, [], _, _, h', _, h => absurd (List.mem_cons.2 (.inl (List.cons.inj h).1.symm)) h'
  | _ :: _, _ :: _, _, _, h1, h2, h => by
    obtain ⟨e, h⟩ := List.cons.inj h
    obtain ⟨r1, r2⟩ := cut_at (fun m => h1 (List.mem_cons_of_mem _ m)) (fun m => h2 (List.mem_cons_of_mem _ m)) h
    exact ⟨by rw [e, r1], r2⟩

theorem addressTypeText_inj {named : Bool} {a b : AddressType} (h : addressTypeText named a = addressTypeText named b) :
    a = b := by
  cases named <;> cases a <;> cases b <;> first | rfl | exact absurd h (by decide +kernel)

/-- C111: the text of link layer data determines the source, the destination and the type of the destination, in every version
of python. -/
theorem c111_ldata (named : Bool) {l k : LData} (h : l.text named = k.text named) :
    l.source = k.source ∧ l.destination = k.destination ∧ l.addressType = k.addressType := by
  unfold LData.text at h
  simp only [List.append_assoc] at h
  have h := List.append_cancel_left h
  have nd : ∀ n, ' ' ∉ decimal n := fun n h => absurd (decimal_chars h) (by decide)
  obtain ⟨-, h⟩ := cut_at (nd _) (nd _) h
  have h := List.append_cancel_left (as := "(0x".toList) h
  obtain ⟨h1, h⟩ := List.append_inj h rfl
  have h := List.append_cancel_left h
  obtain ⟨-, h⟩ := cut_at (nd _) (nd _) h
  have h := List.append_cancel_left (as := "(0x".toList) h
  obtain ⟨h2, h⟩ := List.append_inj h rfl
  have h := List.append_cancel_left h
  exact ⟨hex4_inj h1, hex4_inj h2, addressTypeText_inj h⟩

/-- The units of the documentation. -/
example : shortText 0x1001 = "0x1001".toList ∧ longText 0x91000008 = "0x91000008".toList ∧ octectText 16 = "0x10".toList := by
  decide +kernel

example : stringToOctets ((longText (-2)).drop 2) = .ok [0xFF, 0xFF, 0xFF, 0xFE] := (c111_units (-2)).2.2.2

example (l : LData) (h : l.text true = "source: 1 (0x0001), destination: 2 (0x0002), address_type: AddressType.group".toList) :
    l.source = 1 ∧ l.destination = 2 ∧ l.addressType = .group :=
  c111_ldata true (k := ⟨0xBC, 0xE0, 1, 2, 1, 0, 0x80⟩) (h.trans (by decide +kernel))

end Knx
