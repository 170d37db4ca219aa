import Verif.Spec.Frames

/-! # Specification: how values travel on the bus

Independent of the code of the package: KNX standard 03.07.02 "Datapoint types" for the sizes, 03.03.07 "Application layer",
section 3.1, for the place of a value in a telegram. -/

namespace Knx.Spec

/-- The size in bits of the datapoint types that are defined in the standard, numbered as in docs/source/datapointtypes.rst of
the package: DPT 1.001, 1.005, 1.008, 1.010, 3.007, 7.013, 9.xxx, 14.xxx, also 18.001. The other types are inventions of a
manufacturer. -/
def standardBits : DptClass → Option Nat
  | .switch | .alarm | .upDown | .start => some 1
  | .controlDimming => some 4
  | .sceneControl => some 8
  | .brightness | .float16 | .valueWsp | .valueTemp | .valueLux => some 16
  | .float32 | .valuePower => some 32
  | _ => none

/-- The application control information of a service that carries a value. -/
def serviceBits : Svc → Option Nat
  | .read => none
  | .response => some 0x40
  | .write => some 0x80

/-- A telegram carries a value of some bits: up to six bits stand next to the service, without further octets; more bits
follow in octets of their own, the most significant first. -/
def Travels (svc : Svc) (bits n : Nat) (t : Telegram) : Prop :=
  ∃ base, serviceBits svc = some base ∧
    if bits ≤ 6 then t.code = base + n ∧ t.rest = [] else t.code = base ∧ t.rest = octetsOf (bits / 8) n

end Knx.Spec
