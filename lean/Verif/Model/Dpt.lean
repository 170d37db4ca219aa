import Verif.Model.Float
import Verif.Model.PyInt

/-!
# Datapoint types (knx_stack/datapointtypes.py)
-/

namespace Knx

/-- The datapoint classes of the module (datapointtypes.py:107-784). -/
inductive DptClass
  | switch | alarm | upDown | start | infoSwitch | vimarScene | sceneControl | controlDimming | brightness
  | setupClima | infoClimaReport | float16 | valueWsp | valueTemp | valueLux | float32 | valuePower
  deriving DecidableEq, Repr

/-- How a class behaves: a structure of bit fields (107-392, 395-590), the 2-octet float (626-747) or the 4-octet
float (750-784) (datapointtypes.py). -/
inductive DptKind
  | bits | float16 | float32
  deriving DecidableEq, Repr

/-- Which classes derive from `DPT_Float_16` (datapointtypes.py:705, 718, 731) and `DPT_Float_32` (780). -/
def DptClass.kind : DptClass → DptKind
  | .float16 | .valueWsp | .valueTemp | .valueLux => .float16
  | .float32 | .valuePower => .float32
  | _ => .bits

/-- `sizeof` of the class in octets: its `value` member is a `c_uint8`, `c_uint16` or `c_uint32`
(datapointtypes.py:142, 166, 204, 242, 291, 337, 380, 392, 521, 590, 657, 765). -/
def DptClass.size : DptClass → Nat
  | .setupClima | .infoClimaReport | .float32 | .valuePower => 4
  | .float16 | .valueWsp | .valueTemp | .valueLux => 2
  | _ => 1

/-- `length is DPT.Length.LESS_THAN_A_BYTE` (datapointtypes.py:104, 127, 160, 189, 227, 659, 767); the scene,
dimming and brightness types inherit `A_BYTE_OR_MORE`. -/
def DptClass.lessThanAByte : DptClass → Bool
  | .switch | .alarm | .upDown | .start | .infoSwitch => true
  | _ => false

/-- `__name__` of the class (datapointtypes.py:107-784). -/
def DptClass.name : DptClass → String
  | .switch => "DPT_Switch"
  | .alarm => "DPT_Alarm"
  | .upDown => "DPT_UpDown"
  | .start => "DPT_Start"
  | .infoSwitch => "DPT_Info_Switch"
  | .vimarScene => "DPTVimarScene"
  | .sceneControl => "DPT_SceneControl"
  | .controlDimming => "DPT_Control_Dimming"
  | .brightness => "DPT_Brightness"
  | .setupClima => "DPTSetupClima"
  | .infoClimaReport => "DPTInfoClimaReport"
  | .float16 => "DPT_Float_16"
  | .valueWsp => "DPT_Value_Wsp"
  | .valueTemp => "DPT_Value_Temp"
  | .valueLux => "DPT_Value_Lux"
  | .float32 => "DPT_Float_32"
  | .valuePower => "DPT_Value_Power"

/-- All classes, in source order (datapointtypes.py:107-784). -/
def DptClass.all : List DptClass :=
  [.switch, .alarm, .upDown, .start, .infoSwitch, .vimarScene, .sceneControl, .controlDimming, .brightness,
   .setupClima, .infoClimaReport, .float16, .valueWsp, .valueTemp, .valueLux, .float32, .valuePower]

/-- `getattr(datapointtypes, name)` (datapointtypes.py:33). Simplification: other attributes of the module (the
private structures, imported modules, the abstract `DPT` and the factories) count as absent. -/
def DptClass.ofName (s : String) : Option DptClass := DptClass.all.find? fun c => c.name == s

/-- A member of a `bits` structure: name, offset of its least significant bit, width in bits
(datapointtypes.py:109, 171, 209, 251, 295-299, 342, 397-408, 526-536, 595-600). -/
structure BitField where
  name : String
  off : Nat
  width : Nat
  deriving DecidableEq, Repr

/-- The `_fields_` of the `bits` structures (datapointtypes.py:109, 171, 209, 251, 295-299, 342, 397-408, 526-536,
595-600), offsets counted from the least significant bit. `DPT_Brightness` (392) and the 4-octet float (765) have no
bit structure. -/
def DptClass.bitFields : DptClass → List BitField
  | .switch | .alarm | .infoSwitch | .start => [⟨"action", 0, 1⟩]
  | .upDown => [⟨"direction", 0, 1⟩]
  | .vimarScene => [⟨"index", 0, 6⟩, ⟨"command", 6, 2⟩]
  | .sceneControl => [⟨"number", 0, 6⟩, ⟨"reserved", 6, 1⟩, ⟨"command", 7, 1⟩]
  | .controlDimming => [⟨"step", 0, 3⟩, ⟨"direction", 3, 1⟩]
  | .brightness => []
  | .setupClima =>
    [⟨"temporizzazione", 0, 8⟩, ⟨"setpoint", 8, 8⟩, ⟨"differenziale", 16, 5⟩, ⟨"variazione_setpoint", 21, 2⟩,
     ⟨"unita_misura", 23, 1⟩, ⟨"funzionamento", 24, 4⟩, ⟨"centralizzato", 28, 1⟩, ⟨"stagione", 29, 1⟩,
     ⟨"terziario", 30, 1⟩, ⟨"riservato", 31, 1⟩]
  | .infoClimaReport =>
    [⟨"temperatura_lsb", 0, 8⟩, ⟨"temperatura_msb", 8, 1⟩, ⟨"temporizzazione", 9, 7⟩, ⟨"setpoint", 16, 8⟩,
     ⟨"funzionamento", 24, 4⟩, ⟨"centralizzato", 28, 1⟩, ⟨"stagione", 29, 1⟩, ⟨"terziario", 30, 1⟩,
     ⟨"stato_rele", 31, 1⟩]
  | .float16 | .valueWsp | .valueTemp | .valueLux =>
    [⟨"_mantissa_lsb", 0, 8⟩, ⟨"_mantissa_msb", 8, 3⟩, ⟨"exponent", 11, 4⟩, ⟨"_sign", 15, 1⟩]
  | .float32 | .valuePower => []

/-- How a property of a datapoint class accesses its bit field(s): a plain number, an `IntEnum` with its members in
declaration order (an alias comes after the name it repeats), or the temperature of the climate report
(datapointtypes.py:129-140, 283-289, 581-588). -/
inductive PropKind
  | num
  | enum (members : List (String × Nat))
  | temperatura
  deriving DecidableEq, Repr

/-- `DPTSetupClima.Funzionamento` (datapointtypes.py:425-436); the ninth name is an alias of `automatico`. -/
def funzionamentoMembers : List (String × Nat) :=
  [("off", 0), ("forced_off", 1), ("off_a_tempo", 2), ("antigelo", 3), ("riduzione_notturna", 4),
   ("riduzione_notturna_a_tempo", 5), ("manuale", 6), ("manuale_a_tempo", 7), ("automatico", 8),
   ("automatico_invio_temperatura_abilitato", 8), ("automatico_invio_temperatura_disabilitato", 0xE)]

/-- `DPTSetupClima.Stagione` (datapointtypes.py:438-440). -/
def stagioneMembers : List (String × Nat) := [("inverno", 0), ("estate", 1)]

/-- A property of a datapoint class: its name, the bit field it stands for, and how it is converted
(datapointtypes.py:133-140, 283-289, 446-519, 555-588). -/
structure DptProp where
  name : String
  off : Nat
  width : Nat
  kind : PropKind
  deriving DecidableEq, Repr

/-- The properties of the classes (datapointtypes.py:129-140, 162-164, 191-202, 229-240, 268-289, 316-335, 359-378,
446-519, 555-588). `temperatura` reads and writes the two adjacent fields `temperatura_lsb` and `temperatura_msb`;
it is listed with their joint extent. -/
def DptClass.props : DptClass → List DptProp
  | .switch | .infoSwitch => [⟨"action", 0, 1, .enum [("off", 0), ("on", 1)]⟩]
  | .alarm => [⟨"action", 0, 1, .enum [("no_alarm", 0), ("alarm", 1)]⟩]
  | .start => [⟨"action", 0, 1, .enum [("stop", 0), ("start", 1)]⟩]
  | .upDown => [⟨"direction", 0, 1, .enum [("up", 0), ("down", 1)]⟩]
  | .vimarScene =>
    [⟨"command", 6, 2, .enum [("attiva", 0), ("cancella", 1), ("memorizza", 2), ("identifica", 3)]⟩,
     ⟨"index", 0, 6, .num⟩]
  | .sceneControl => [⟨"command", 7, 1, .enum [("activate", 0), ("learn", 1)]⟩, ⟨"number", 0, 6, .num⟩]
  | .controlDimming => [⟨"step", 0, 3, .num⟩, ⟨"direction", 3, 1, .enum [("down", 0), ("up", 1)]⟩]
  | .setupClima =>
    [⟨"funzionamento", 24, 4, .enum funzionamentoMembers⟩, ⟨"stagione", 29, 1, .enum stagioneMembers⟩,
     ⟨"unita_misura", 23, 1, .enum [("celsius", 0), ("farenheit", 1)]⟩, ⟨"centralizzato", 28, 1, .num⟩,
     ⟨"terziario", 30, 1, .num⟩, ⟨"setpoint", 8, 8, .num⟩, ⟨"differenziale", 16, 5, .num⟩,
     ⟨"temporizzazione", 0, 8, .num⟩, ⟨"variazione_setpoint", 21, 2, .num⟩]
  | .infoClimaReport =>
    [⟨"funzionamento", 24, 4, .enum funzionamentoMembers⟩, ⟨"stagione", 29, 1, .enum stagioneMembers⟩,
     ⟨"setpoint", 16, 8, .num⟩, ⟨"temperatura", 0, 9, .temperatura⟩]
  | _ => []

/-- A python value given to or read from a property (an `IntEnum` member read from a property is represented by the
name of the member, as in the description, datapointtypes.py:80-81). -/
inductive PyVal
  | int (n : Int)
  | str (s : String)
  | float (f : PyFloat)
  deriving DecidableEq, Repr

/-- A datapoint: its class and the integer in its `value` member (datapointtypes.py:142 and the like). -/
structure Dpt where
  cls : DptClass
  raw : Nat
  deriving DecidableEq, Repr

namespace Dpt

/-- Constructing a class without arguments zeroes the storage (datapointtypes.py:33). -/
def new (c : DptClass) : Dpt := ⟨c, 0⟩

/-- Assigning an int to the `value` member (datapointtypes.py:142, 166, 204, 242, 291, 337, 380, 392, 521, 590, 657,
765). -/
def setValue (d : Dpt) (n : Int) : Dpt := { d with raw := trunc (8 * d.cls.size) n }

/-- Looking up a bit field of the `bits` member by name (`AttributeError` if there is none)
(datapointtypes.py:107-600). -/
def bitField (d : Dpt) (f : String) : Option BitField := d.cls.bitFields.find? fun b => b.name == f

/-- Reading `dpt.bits.<f>` (datapointtypes.py:135, 197, 276, 285, 331 and the like). -/
def getBits (d : Dpt) (f : String) : Except Err Nat :=
  match d.bitField f with
  | none => .error .attributeError
  | some b => .ok (getField b.off b.width d.raw)

/-- Assigning an int to `dpt.bits.<f>` (datapointtypes.py:140, 202, 281, 289, 335 and the like). Simplification:
assigning to a name that is no field is an error here, python would set an attribute of a temporary. -/
def setBits (d : Dpt) (f : String) (n : Int) : Except Err Dpt :=
  match d.bitField f with
  | none => .error .attributeError
  | some b => .ok { d with raw := setField b.off b.width n d.raw }

/-- Looking up a property of the class by name (datapointtypes.py:38, 71-79). -/
def findProp (d : Dpt) (f : String) : Option DptProp := d.cls.props.find? fun p => p.name == f

/-- The name of the enum member with a code, as given by `Enum(code).name`: the first name declared for the code,
`ValueError` if there is none (datapointtypes.py:135, 81). -/
def memberName (members : List (String × Nat)) (code : Nat) : Except Err String :=
  match members.find? fun p => p.2 == code with
  | none => .error .valueError
  | some p => .ok p.1

/-- The attributes of an `IntEnum` class beside its members (datapointtypes.py:129, python 3.11). Simplification: without
those whose names begin with an underscore. -/
def intAttributes : List String :=
  ["as_integer_ratio", "bit_count", "bit_length", "conjugate", "denominator", "from_bytes", "imag", "mro", "numerator", "real",
   "to_bytes"]

/-- `Enum(getattr(Enum, name))` (datapointtypes.py:139-140): `AttributeError` for an unknown name, `ValueError` for the name of
an attribute that is no member. -/
def memberCode (members : List (String × Nat)) (name : String) : Except Err Nat :=
  match members.find? fun p => p.1 == name with
  | none => if name ∈ intAttributes then .error .valueError else .error .attributeError
  | some p => .ok p.2

/-- The `temperatura` getter (datapointtypes.py:581-583): a true division of the 9 bit number by 10. -/
def getTemperatura (raw : Nat) : PyFloat :=
  fl64 (((getField 8 1 raw * 2 ^ 8 + getField 0 8 raw : Nat) : ℚ) / 10)

/-- `int(f)` of a float (datapointtypes.py:587-588): truncation towards zero, `OverflowError` for an infinity,
`ValueError` for NaN. -/
def floatToInt : PyFloat → Except Err Int
  | .fin q => .ok (if 0 ≤ q then ⌊q⌋ else ⌈q⌉)
  | .negZero => .ok 0
  | .inf _ => .error .overflowError
  | .nan => .error .valueError

/-- `int(value * 10)` (datapointtypes.py:587-588). Text times ten is the text repeated ten times. -/
def timesTen : PyVal → Except Err Int
  | .int n => .ok (n * 10)
  | .float (.fin q) => floatToInt (fl64 (q * 10))
  | .float f => floatToInt f
  | .str s => pyInt (repeated 10 s.toList)

/-- The `temperatura` setter (datapointtypes.py:585-588). -/
def setTemperatura (v : PyVal) : Py Nat Unit :=
  Py.bind (Py.lift (timesTen v)) fun t =>
    Py.bind (Py.modify (setField 8 1 (t / 2 ^ 8))) fun _ =>
      Py.modify (setField 0 8 t)

/-- Reading a property (datapointtypes.py:133-135, 283-285, 581-583 and the like). -/
def getProp (p : DptProp) (raw : Nat) : Except Err PyVal :=
  match p.kind with
  | .num => .ok (.int (getField p.off p.width raw))
  | .enum ms =>
    match memberName ms (getField p.off p.width raw) with
    | .error e => .error e
    | .ok s => .ok (.str s)
  | .temperatura => .ok (.float (getTemperatura raw))

/-- Assigning to a property (datapointtypes.py:137-140, 287-289, 585-588 and the like): ctypes accepts only ints for
an integer field (`TypeError`), `getattr` only text (`TypeError`). Mutates the raw value. -/
def setProp (p : DptProp) (v : PyVal) : Py Nat Unit :=
  match p.kind with
  | .num =>
    match v with
    | .int n => Py.modify (setField p.off p.width n)
    | _ => Py.raise .typeError
  | .enum ms =>
    match v with
    | .str s => Py.bind (Py.lift (memberCode ms s)) fun c => Py.modify (setField p.off p.width c)
    | _ => Py.raise .typeError
  | .temperatura => setTemperatura v

/-- `dpt.__getattribute__(name)` for a property name (datapointtypes.py:79). -/
def getAttr (d : Dpt) (f : String) : Except Err PyVal :=
  match d.findProp f with
  | none => .error .attributeError
  | some p => getProp p d.raw

/-- `dpt.decode()` of the float types (datapointtypes.py:661-668, 769-770). -/
def decode (d : Dpt) : Except Err PyFloat :=
  match d.cls.kind with
  | .float16 => .ok (decode16 d.raw)
  | .float32 => .ok (decode32 d.raw)
  | .bits => .error .attributeError

/-- The implicit conversion of the argument of `encode` to a float: `TypeError` for text, `OverflowError` for too
large an int (datapointtypes.py:671, 773). -/
def toFloat : PyVal → Except Err PyFloat
  | .int n => intToFloat n
  | .float f => .ok f
  | .str _ => .error .typeError

/-- Running a method that mutates the storage of a datapoint (a `ctypes.Union`; datapointtypes.py:142 and the
like). -/
def onRaw (f : Py Nat Unit) : Py Dpt Unit := fun d =>
  match f d.raw with
  | (r, raw) => (r, { d with raw := raw })

/-- `dpt.encode(value)` of the float types (datapointtypes.py:670-692, 772-773), mutating the datapoint. -/
def encode (v : PyVal) : Py Dpt Unit := fun d =>
  match d.cls.kind with
  | .bits => (.error .attributeError, d)
  | .float16 => Py.bind (Py.lift (toFloat v)) (fun f => onRaw (encode16Float f)) d
  | .float32 => Py.bind (Py.lift (toFloat v)) (fun f => onRaw (Py.modify fun _ => encode32 f)) d

/-- `setattr(dpt, key, value)` (datapointtypes.py:38): a property, the `value` member, or the `bits` member where that
is a plain integer (392) or a float (765); a structure cannot be assigned a number (`TypeError`). Simplification: any
other key becomes an attribute of the instance and changes nothing here. -/
def setAttr (key : String) (v : PyVal) : Py Dpt Unit := fun d =>
  match d.findProp key with
  | some p => onRaw (setProp p v) d
  | none =>
    if key = "value" ∨ (key = "bits" ∧ d.cls = .brightness) then
      match v with
      | .int n => (.ok (), d.setValue n)
      | _ => (.error .typeError, d)
    else if key = "bits" then
      match d.cls.kind with
      | .float32 => encode v d
      | _ => (.error .typeError, d)
    else (.ok (), d)

/-- The body of the loop of `DPT_Factory.make` (datapointtypes.py:35-38). -/
def assign (key : String) (v : PyVal) : Py Dpt Unit :=
  if key = "decoded_value" then encode v else setAttr key v

/-- `DPT_Factory.make` (datapointtypes.py:8-40): the loop (34-38) over the items of the dictionary. -/
def make (name : String) (fields : List (String × PyVal)) : Except Err Dpt :=
  match DptClass.ofName name with
  | none => .error .attributeError
  | some c =>
    match Py.forEach fields (fun kv => assign kv.1 kv.2) (Dpt.new c) with
    | (.ok _, d) => .ok d
    | (.error e, _) => .error e

/-- The loop of `Description_Factory.make` over the properties (datapointtypes.py:78-83). -/
def describeProps (raw : Nat) : List DptProp → Except Err (List (String × PyVal))
  | [] => .ok []
  | p :: ps =>
    match getProp p raw with
    | .error e => .error e
    | .ok v =>
      match describeProps raw ps with
      | .error e => .error e
      | .ok kvs => .ok ((p.name, v) :: kvs)

/-- `Description_Factory.make` (datapointtypes.py:43-88). Simplification: python iterates over a set, i.e. in an
unspecified order; here the order is that of `props` (for any order see `describeIn`). -/
def describe (d : Dpt) : Except Err (String × List (String × PyVal)) :=
  match describeProps d.raw d.cls.props with
  | .error e => .error e
  | .ok kvs =>
    match d.cls.kind with
    | .float16 => .ok (d.cls.name, kvs ++ [("decoded_value", .float (decode16 d.raw))])
    | .float32 => .ok (d.cls.name, kvs ++ [("decoded_value", .float (decode32 d.raw))])
    | .bits => .ok (d.cls.name, if d.cls.props = [] then [("value", .int d.raw)] else kvs)

/-- `Description_Factory.make` (datapointtypes.py:43-88) when python happens to iterate over the set of properties in the
given order. -/
def describeIn (d : Dpt) (order : List DptProp) : Except Err (String × List (String × PyVal)) :=
  match describeProps d.raw order with
  | .error e => .error e
  | .ok kvs =>
    match d.cls.kind with
    | .float16 => .ok (d.cls.name, kvs ++ [("decoded_value", .float (decode16 d.raw))])
    | .float32 => .ok (d.cls.name, kvs ++ [("decoded_value", .float (decode32 d.raw))])
    | .bits => .ok (d.cls.name, if order = [] then [("value", .int d.raw)] else kvs)

/-- Whether `repr(dpt)` raises (datapointtypes.py:100-102, 700-702, 775-777); the text itself is `Dpt.text`. -/
def repr (d : Dpt) : Except Err Unit :=
  match d.cls.kind with
  | .bits =>
    match d.describe with
    | .error e => .error e
    | .ok _ => .ok ()
  | _ => .ok ()

end Dpt
end Knx
