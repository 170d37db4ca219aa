import Verif.Spec.UsbClient
import Verif.Spec.Network
import Verif.Lemmas.Assoc

/-! # Specification: two USB installations on one bus -/

namespace Knx.Spec

/-- The texts a daemon reads from its clients. -/
def inputsOf (es : List Daemon.Event) : List (List Char) :=
  es.flatMap fun
    | .input _ (some (c :: s)) _ => [c :: s]
    | _ => []

/-- A report that was written to the bus interface of one installation arrives as a report of the interface of the
other: both are padded, and the telegram is changed as telegrams are on the way. -/
def Passes (d r : List (BitVec 8)) : Prop :=
  ∃ m pad pad' info c1 c2 src, d = usbReport m ++ pad ∧ r = usbReport (arrival info c1 c2 src m) ++ pad'

/-- Two lists in one, taking from the first where the order says so and from the second elsewhere. -/
def merge {α : Type} : List Bool → List α → List α → List α
  | true :: o, a :: as, bs => a :: merge o as bs
  | false :: o, as, b :: bs => b :: merge o as bs
  | _, as, bs => as ++ bs

/-- The addresses of the object are known and the first of them is not 0. -/
def SendsTo (aA : AssocTable) (asap : Asap) (x : BitVec 16) : Prop :=
  x ≠ 0 ∧ ∃ as, addressesOf aA.absDict asap.value = x :: as ∧
    ∀ y ∈ x :: as, y ∈ aA.at_.gas.map Addr.fs ∨ y = aA.at_.ind.fs

/-- The address leads to some objects. -/
def LeadsTo (aB : AssocTable) (x : BitVec 16) (vs : List Int) : Prop :=
  x ∈ aB.at_.gas.map Addr.fs ∧ aB.Routes ⟨0, x⟩ vs ∧ vs ≠ []

/-- What a group request of an installation with the tables `aA` and `gA` is for one with the tables `aB` and `gB`: the
indications of the objects that the first address of the requested object leads to. -/
def Means (aA aB : AssocTable) (gA gB : GroupObjectTable) : InMsg → Res → Prop
  | .groupWriteReq asap d, r =>
    Displayable d ∧ ∃ c x vs, typeIn gA asap.value = some c ∧ SendsTo aA asap x ∧ LeadsTo aB x vs ∧
      r = .list (fanOut .write .ind gB vs (writtenValue c d.raw)) ∧ Shown r
  | .groupRead asap, r => ∃ x vs, SendsTo aA asap x ∧ LeadsTo aB x vs ∧ r = .list (fanOut .read .ind gB vs 0)
  | _, _ => False

end Knx.Spec
