import Verif.Spec.EndToEnd
import Verif.Spec.Gateway

/-! # Specification: group requests from one installation to another, over tunnels -/

namespace Knx.Spec

/-- The messages the application of the client writes. -/
def writesOf (es : List NetEvent) : List InMsg :=
  es.filterMap fun
    | .client (.write m) => some m
    | _ => none

/-- A frame of one installation comes out of the bus interface of another one. -/
def Comes (m m' : Msg) : Prop := ∃ info c1 c2 src, info.length < 256 ∧ m' = arrival info c1 c2 src m

/-- What a group request of an installation with the tables `aA` and `gA` makes an installation with the tables `aB` and
`gB` decode: nothing if the first address of the requested object is unknown there, otherwise the indications of the
objects that it leads to. -/
def Received (aA aB : AssocTable) (gA gB : GroupObjectTable) : InMsg → List OutMsg → Prop
  | .groupWriteReq asap d, l => ∃ c x, typeIn gA asap.value = some c ∧ SendsTo aA asap x ∧
      ((x ∉ aB.at_.gas.map Addr.fs ∧ l = []) ∨
        ∃ vs, LeadsTo aB x vs ∧ l = fanOut .write .ind gB vs (writtenValue c d.raw) ∧ FirstDisplayable l)
  | .groupRead asap, l => ∃ x, SendsTo aA asap x ∧
      ((x ∉ aB.at_.gas.map Addr.fs ∧ l = []) ∨ ∃ vs, LeadsTo aB x vs ∧ l = fanOut .read .ind gB vs 0)
  | _, _ => False

/-- A frame of one installation comes out of the USB interface of another one, as a padded report. -/
def ComesAsReport (m r : Msg) : Prop := ∃ m' pad, Comes m m' ∧ r = usbReport m' ++ pad

/-- A report written to the USB interface of one installation comes out of the bus interface of another one as a frame. -/
def LeavesAsFrame (d m' : Msg) : Prop := ∃ m pad, d = usbReport m ++ pad ∧ Comes m m'

/-- The datapoint of a request can be displayed. -/
def Loggable : InMsg → Prop
  | .groupWriteReq _ d => Displayable d
  | _ => True

end Knx.Spec
