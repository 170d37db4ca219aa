import Verif.Model.TunnelProgram

/-! # Independent descriptions for the tunnelling client as a program -/

namespace Knx.Spec

/-- The datagram of a KNXnet/IP service. -/
def OfService (a b : Byte) (f : Msg) : Prop := ∃ rest, f = [0x06, 0x10, a, b] ++ rest

instance (a b : Byte) (f : Msg) : Decidable (OfService a b f) :=
  decidable_of_iff (f.take 4 = [0x06, 0x10, a, b]) ⟨fun h => ⟨f.drop 4, by rw [← h, List.take_append_drop]⟩,
    fun ⟨r, h⟩ => by rw [h]; rfl⟩

/-- A request for a telegram: what an application writes. -/
def IsRequest : InMsg → Prop
  | .groupRead .. | .groupWriteReq .. | .propertyRead .. | .propertyWrite .. => True
  | _ => False

/-- Messages with the times at which they were written: at least so many milliseconds apart. -/
def Spaced {α : Type} (gap : Nat) (l : List (Nat × α)) : Prop := l.Pairwise fun x y => x.1 + gap ≤ y.1

end Knx.Spec
