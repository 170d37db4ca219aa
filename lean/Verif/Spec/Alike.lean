import Verif.Spec.Frames

/-! # Telegrams that mean the same to a receiver -/

namespace Knx
namespace Spec

/-- Two telegrams that agree in what a receiver of indications or confirmations needs: the kind of destination and the
destination, the transport and application control octets, what follows them, for a confirmation whether it is negative, and
for an indication with an individual destination its source. They may differ in the frame format, the repetition flag, the
kind of broadcast, the priority, the acknowledge flag, the hop count, the extended frame format, the declared length, and (in
all other cases) the source. -/
structure Interchangeable (k : Kind) (t t' : Telegram) : Prop where
  group : t.IsGroup ↔ t'.IsGroup
  destination : t.destination = t'.destination
  tpci : t.tpci = t'.tpci
  apci : t.apci = t'.apci
  rest : t.rest = t'.rest
  status : k = .con → t.status = t'.status
  source : k = .ind → ¬ t.IsGroup → t.source = t'.source

end Spec
end Knx
