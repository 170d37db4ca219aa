import Verif.Model.DiscoveryMain
import Verif.Props.Discovery
import Verif.Props.IpText

/-! # C102: the discovery program and its argument -/

namespace Knx
open Spec

namespace Spec

/-- What the discovery program is for: it listens at the given address, port 5544, and sends the search request with this
endpoint to the KNXnet/IP system setup multicast address 224.0.23.12, port 3671, whose group it has joined. -/
def searching (a : BitVec 32) : Discovery :=
  { listens := some (a, 5544), port := some 3671, joined := some 0xE000170C
    sent := [((0xE000170C, 3671), searchRequest a 5544)] }

end Spec

theorem group_octets : inetAton discoveryGroup = .ok 0xE000170C := by decide +kernel

theorem digit_mem {c : Char} (h : '0' ≤ c ∧ c ≤ '9') : c ∈ "0123456789".toList := by
  have h1 : 48 ≤ c.toNat := h.1
  have h2 : c.toNat ≤ 57 := h.2
  have h3 : ∀ n < 58, 48 ≤ n → Char.ofNat n ∈ "0123456789".toList := by decide +kernel
  rw [← Char.ofNat_toNat c]
  exact h3 _ (by omega) h1

theorem aton_undigit {l : List Char} (h : ∀ c ∈ l.head?, c ∉ "0123456789".toList) : ∃ e, inetAton l = .error e := by
  unfold inetAton
  split_ifs with h0
  · exact ⟨_, rfl⟩
  · rcases l with _ | ⟨c, l⟩
    · exact ⟨.osError, by simp [inetParts]⟩
    · have hc : ¬ ('0' ≤ c ∧ c ≤ '9') := fun hc => h c rfl (digit_mem hc)
      exact ⟨.osError, by unfold inetParts; rw [if_neg hc]⟩

/-- C102 is false of every program whose name does not begin with a digit, and such is the name of its file and of every
absolute path: whatever its arguments are, it sends nothing, so that it does not search at any address. -/
theorem c102_refuted (resolve : List Char → Option (BitVec 32)) {name : List Char}
    (h : ∀ c ∈ name.head?, c ∉ "0123456789".toList) (args : List (List Char)) :
    (discoveryMain resolve (name :: args)).2.sent = [] ∧ ∀ a, (discoveryMain resolve (name :: args)).2 ≠ searching a := by
  have h1 : (discoveryMain resolve (name :: args)).2.sent = [] := by
    obtain ⟨e, he⟩ := aton_undigit h
    simp only [discoveryMain, Py.bind, listenDiscovery]
    rcases resolve name with _ | a
    · rfl
    · simp only [sendDiscovery, group_octets, he]
  exact ⟨h1, fun a ha => by rw [ha] at h1; cases h1⟩

/-- C102 is false of the arguments: they make no difference. -/
theorem c102_argument_refuted (resolve : List Char → Option (BitVec 32)) (name : List Char) (args args' : List (List Char)) :
    discoveryMain resolve (name :: args) = discoveryMain resolve (name :: args') := rfl

/-- C102 is false in particular if the name of the program is not the name of a host: the program ends with an exception and
has done nothing. -/
theorem c102_unknown_refuted (resolve : List Char → Option (BitVec 32)) {name : List Char} (h : resolve name = none)
    (args : List (List Char)) : discoveryMain resolve (name :: args) = (.error .osError, {}) := by
  simp only [discoveryMain, Py.bind, listenDiscovery, h]

/-- C102 for the address that the program takes, its own name: if this is an address as everybody writes it, the program does
what it is for. Missing from the full claim: its argument (`c102_refuted`). -/
theorem c102_partial {resolve : List Char → Option (BitVec 32)} {name : List Char} {a : Nat} (h : Quad name a)
    (hr : resolve name = some (BitVec.ofNat 32 a)) (args : List (List Char)) :
    discoveryMain resolve (name :: args) = (.ok (), searching (BitVec.ofNat 32 a)) := by
  simp only [discoveryMain, Py.bind, listenDiscovery, hr, sendDiscovery, group_octets, (c80_quad h).1, c67_request]
  rfl

example : (discoveryMain (fun _ => some 0x7F000001) ["knxnet_ip_discovery.py".toList, "172.31.10.111".toList]).2.sent = [] :=
  (c102_refuted _ (by decide +kernel) _).1

example : discoveryMain (fun _ => none) ["/usr/lib/knxnet_ip_discovery.py".toList, "172.31.10.111".toList] =
    (.error .osError, {}) :=
  c102_unknown_refuted _ rfl _

example : discoveryMain (fun _ => some 0xAC1F0A6F) [inetNtoa (0xAC1F0A6F#32).toNat] = (.ok (), searching 0xAC1F0A6F) :=
  c102_partial (c80_print 0xAC1F0A6F).1 rfl _

end Knx
