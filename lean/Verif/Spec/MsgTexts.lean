import Verif.Model.KnxNetIp
import Verif.Spec.Dpt
import Verif.Spec.Daemon
import Verif.Spec.Frames

/-! # Specification: what the text of a message tells

Written without the functions that make the texts. -/

namespace Knx.Spec

/-- What is assumed of python's `repr` of a float: different floats have different texts, which contain neither a comma
nor a brace nor a line end. -/
structure FloatTexts (fr : PyFloat → List Char) : Prop where
  inj : ∀ x y, fr x = fr y → x = y
  clean : ∀ x, ',' ∉ fr x ∧ '}' ∉ fr x ∧ '\n' ∉ fr x

/-- An order in which python may run through the properties of a type. -/
def OrderOk (order : DptClass → List DptProp) : Prop := ∀ c, (order c).Perm c.props

/-- The bits of a datapoint that its properties show. -/
def shownBits : DptClass → List Nat
  | .switch | .alarm | .upDown | .start | .infoSwitch => [0]
  | .vimarScene | .brightness => List.range 8
  | .sceneControl => [0, 1, 2, 3, 4, 5, 7]
  | .controlDimming => [0, 1, 2, 3]
  | .setupClima => List.range 31
  | .infoClimaReport =>
    [0, 1, 2, 3, 4, 5, 6, 7, 8, 16, 17, 18, 19, 20, 21, 22, 23, 24, 25, 26, 27, 29]
  | _ => []

/-- Two datapoints show the same: they are of the same type, and have the same number if that is a float, the same shown
bits otherwise. -/
def SameDisplay (d d' : Dpt) : Prop :=
  d.cls = d'.cls ∧
    match d.cls.kind with
    | .float16 => decode16 d.raw = decode16 d'.raw
    | .float32 => decode32 d.raw = decode32 d'.raw
    | .bits => ∀ i ∈ shownBits d.cls, d.raw.testBit i = d'.raw.testBit i

/-- Two messages say the same: they are the same but for bits of a datapoint that are not shown. -/
def LookAlike : OutMsg → OutMsg → Prop
  | .group svc conf a d, m' => ∃ d', m' = .group svc conf a d' ∧ SameDisplay d d'
  | m, m' => m' = m

/-- A message as decoding makes it, the ASAPs of group messages having names according to `name` (an empty name being no
name), numbers being in their range, and the data of a property being there unless it is only asked for. -/
def Proper (name : Int → Option String) : OutMsg → Prop
  | .group _ _ a d => a.name = name a.value ∧ d.Wf
  | .property svc _ a _ _ _ _ data => a = ⟨0, none⟩ ∧ (data = none ↔ svc = .read)
  | .searchRes ip _ ia => ip < 2 ^ 32 ∧ ia < 2 ^ 16
  | .connectRes ip _ _ _ => ip < 2 ^ 32
  | _ => True

/-- A message whose datapoint, if it has one, can be described. -/
def Showable : OutMsg → Prop
  | .group _ _ _ d => Displayable d
  | _ => True

/-- The name that a table of group objects gives to an ASAP. -/
def nameIn (g : Option GroupObjectTable) (v : Int) : Option String :=
  ((g.getD []).find? fun p => p.1.value = v).bind fun p => p.1.name

/-- No two ASAPs of a table have the same value. -/
def OneEach (g : Option GroupObjectTable) : Prop := ((g.getD []).map fun p => p.1.value).Nodup

end Knx.Spec
