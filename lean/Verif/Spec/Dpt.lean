import Verif.Model.Dpt

/-! # Specification: datapoint layouts and KNX floats -/

namespace Knx
namespace Spec

/-- The names of the datapoint types. -/
def typeName : DptClass → String
  | .switch => "DPT_Switch"
  | .alarm => "DPT_Alarm"
  | .upDown => "DPT_UpDown"
  | .start => "DPT_Start"
  | .infoSwitch => "DPT_Info_Switch"
  | .vimarScene => "DPTVimarScene"
  | .sceneControl => "DPT_SceneControl"
  | .controlDimming => "DPT_Control_Dimming"
  | .brightness => "DPT_Brightness"
  | .setupClima => "DPTSetupClima"
  | .infoClimaReport => "DPTInfoClimaReport"
  | .float16 => "DPT_Float_16"
  | .valueWsp => "DPT_Value_Wsp"
  | .valueTemp => "DPT_Value_Temp"
  | .valueLux => "DPT_Value_Lux"
  | .float32 => "DPT_Float_32"
  | .valuePower => "DPT_Value_Power"

/-- The fields of a datapoint type with their widths in bits, from the least significant bit up. -/
def fieldWidths : DptClass → List (String × Nat)
  | .switch | .alarm | .infoSwitch | .start => [("action", 1)]
  | .upDown => [("direction", 1)]
  | .vimarScene => [("index", 6), ("command", 2)]
  | .sceneControl => [("number", 6), ("reserved", 1), ("command", 1)]
  | .controlDimming => [("step", 3), ("direction", 1)]
  | .brightness => []
  | .setupClima =>
    [("temporizzazione", 8), ("setpoint", 8), ("differenziale", 5), ("variazione_setpoint", 2), ("unita_misura", 1),
     ("funzionamento", 4), ("centralizzato", 1), ("stagione", 1), ("terziario", 1), ("riservato", 1)]
  | .infoClimaReport =>
    [("temperatura_lsb", 8), ("temperatura_msb", 1), ("temporizzazione", 7), ("setpoint", 8), ("funzionamento", 4),
     ("centralizzato", 1), ("stagione", 1), ("terziario", 1), ("stato_rele", 1)]
  | .float16 | .valueWsp | .valueTemp | .valueLux =>
    [("_mantissa_lsb", 8), ("_mantissa_msb", 3), ("exponent", 4), ("_sign", 1)]
  | .float32 | .valuePower => []

/-- Fields packed one after the other, starting at a bit position: name, position, width. -/
def packed (start : Nat) : List (String × Nat) → List (String × Nat × Nat)
  | [] => []
  | (f, w) :: fs => (f, start, w) :: packed (start + w) fs

/-- The number of octets of a datapoint type. -/
def octets : DptClass → Nat
  | .setupClima | .infoClimaReport | .float32 | .valuePower => 4
  | .float16 | .valueWsp | .valueTemp | .valueLux => 2
  | _ => 1

/-- The fields of a datapoint type that are read and written as numbers. -/
def numbers : DptClass → List String
  | .vimarScene => ["index"]
  | .sceneControl => ["number"]
  | .controlDimming => ["step"]
  | .setupClima =>
    ["centralizzato", "terziario", "setpoint", "differenziale", "temporizzazione", "variazione_setpoint"]
  | .infoClimaReport => ["setpoint"]
  | _ => []

/-- The operating modes of the climate types. -/
def modes : List (String × Nat) :=
  [("off", 0), ("forced_off", 1), ("off_a_tempo", 2), ("antigelo", 3), ("riduzione_notturna", 4),
   ("riduzione_notturna_a_tempo", 5), ("manuale", 6), ("manuale_a_tempo", 7), ("automatico", 8),
   ("automatico_invio_temperatura_abilitato", 8), ("automatico_invio_temperatura_disabilitato", 14)]

/-- The fields of a datapoint type that are read and written by names, with the names and their codes. -/
def names : DptClass → List (String × List (String × Nat))
  | .switch | .infoSwitch => [("action", [("off", 0), ("on", 1)])]
  | .alarm => [("action", [("no_alarm", 0), ("alarm", 1)])]
  | .start => [("action", [("stop", 0), ("start", 1)])]
  | .upDown => [("direction", [("up", 0), ("down", 1)])]
  | .vimarScene => [("command", [("attiva", 0), ("cancella", 1), ("memorizza", 2), ("identifica", 3)])]
  | .sceneControl => [("command", [("activate", 0), ("learn", 1)])]
  | .controlDimming => [("direction", [("down", 0), ("up", 1)])]
  | .setupClima =>
    [("funzionamento", modes), ("stagione", [("inverno", 0), ("estate", 1)]),
     ("unita_misura", [("celsius", 0), ("farenheit", 1)])]
  | .infoClimaReport => [("funzionamento", modes), ("stagione", [("inverno", 0), ("estate", 1)])]
  | _ => []

/-- The attributes that every whole number has. -/
def numberAttributes : List String :=
  ["as_integer_ratio", "bit_count", "bit_length", "conjugate", "denominator", "from_bytes", "imag", "mro", "numerator",
   "real", "to_bytes"]

/-- All properties of a datapoint type. -/
def properties (c : DptClass) : List String :=
  numbers c ++ (names c).map Prod.fst ++ if c = .infoClimaReport then ["temperatura"] else []

/-- The datapoint types that are 2-octet floats. -/
def isFloat16 : DptClass → Bool
  | .float16 | .valueWsp | .valueTemp | .valueLux => true
  | _ => false

/-- The datapoint types that are 4-octet floats. -/
def isFloat32 : DptClass → Bool
  | .float32 | .valuePower => true
  | _ => false

/-- The mantissa of a KNX 2-octet float: 12 bit two's complement, the sign bit being the most significant bit of the
number and the others its 11 low bits. -/
def mantissa16 (raw : Nat) : Int := (raw % 2 ^ 11 : Nat) - if raw / 2 ^ 15 % 2 = 1 then 2 ^ 11 else 0

/-- The exponent of a KNX 2-octet float. -/
def exponent16 (raw : Nat) : Nat := raw / 2 ^ 11 % 2 ^ 4

end Spec

/-- The raw value fits the datapoint's octets. -/
def Dpt.Wf (d : Dpt) : Prop := d.raw < 256 ^ Spec.octets d.cls

end Knx
