import Verif.Model.State
import Verif.Model.TableTexts
import Verif.Model.UnitTexts

/-!
# The text of the state

`State.__repr__` of knx_stack/state.py.
-/

namespace Knx

/-- `%s` of a `Medium`, a plain `Enum` (state.py:21-24, 76, 83). -/
def Medium.text : Medium → List Char
  | .tp => "Medium.tp".toList
  | .usbHid => "Medium.usb_hid".toList
  | .knxnetIp => "Medium.knxnet_ip".toList

/-- `%s` of an attribute that may be `None` (state.py:76-92). -/
def optText {α : Type} (f : α → List Char) : Option α → List Char
  | none => "None".toList
  | some x => f x

/-- `State.__repr__` (state.py:75-93); `named` as in `LData.text`, `grp` as in `AssocTable.text`. `knxnet_ip.State` inherits it,
its communication channel is not shown. -/
def State.text (named : Bool) (grp : Addr → Bool) (s : State) : List Char :=
  " State for ".toList ++ s.medium.text ++ "\n\n        ".toList ++
  optText (AssocTable.text grp) s.assoc ++ "\n\n        ".toList ++
  optText GroupObjectTable.text s.got ++ "\n\n        LData structure (for decode functions): ".toList ++
  optText (LData.text named) s.ldata ++ "\n\n        ASAP: ".toList ++
  optText asapText s.asap ++ ", APCI: ".toList ++ optText decimal s.apci ++ ", Address Type: ".toList ++
  optText (addressTypeText named) s.addressType ++ "\n\n        Sequence Counter (remote): ".toList ++
  decimal s.seqRemote ++ "\n\n        Sequence Counter (local): ".toList ++ decimal s.seqLocal ++ "\n".toList

end Knx
