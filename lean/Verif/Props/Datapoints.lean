import Verif.Props.Float16
import Verif.Props.Float32

/-! # C15 - C17: datapoint fields, enumerations, descriptions -/

namespace Knx

/-! ## C15 fields -/

/-- C15: the fields of every type lie one after the other from the least significant bit up, with the widths of the
type, and fit the octets of the type. -/
theorem c15_layout (c : DptClass) :
    c.bitFields.map (fun b => (b.name, b.off, b.width)) = Spec.packed 0 (Spec.fieldWidths c) ∧
      c.size = Spec.octets c ∧ ((Spec.fieldWidths c).map Prod.snd).sum ≤ 8 * Spec.octets c := by
  cases c <;> decide

theorem bitField_mem {d : Dpt} {f : String} {b : BitField} (h : d.bitField f = some b) :
    b ∈ d.cls.bitFields ∧ b.name = f := by
  unfold Dpt.bitField at h
  exact ⟨List.mem_of_find?_eq_some h, by simpa using List.find?_some h⟩

theorem bitFields_disjoint (c : DptClass) :
    ∀ b ∈ c.bitFields, b.off + b.width ≤ 8 * Spec.octets c ∧
      ∀ b' ∈ c.bitFields, b'.name ≠ b.name → b.off + b.width ≤ b'.off ∨ b'.off + b'.width ≤ b.off := by
  cases c <;> decide

theorem wf_iff {c : DptClass} {raw : Nat} : (⟨c, raw⟩ : Dpt).Wf ↔ raw < 2 ^ (8 * Spec.octets c) := by
  unfold Dpt.Wf
  rw [pow_mul]
  rfl

/-- C15: writing any integer to a field of the bit structure stores it modulo the width of the field; every other field
and every bit outside the field keeps its value. -/
theorem c15_bits (d : Dpt) (hw : d.Wf) (f : String) (off w : Nat)
    (hf : (f, off, w) ∈ Spec.packed 0 (Spec.fieldWidths d.cls)) (n : Int) :
    ∃ d', d.setBits f n = .ok d' ∧ d'.cls = d.cls ∧ d'.Wf ∧ d'.getBits f = .ok (n % 2 ^ w).toNat ∧
      (∀ g, g ≠ f → d'.getBits g = d.getBits g) ∧
      d'.raw / 2 ^ (off + w) = d.raw / 2 ^ (off + w) ∧ d'.raw % 2 ^ off = d.raw % 2 ^ off := by
  rw [← (c15_layout d.cls).1] at hf
  obtain ⟨b, hb, hbe⟩ := List.mem_map.1 hf
  simp only [Prod.mk.injEq] at hbe
  obtain ⟨rfl, rfl, rfl⟩ := hbe
  have hfind : d.bitField b.name = some b := by
    have key : ∀ c : DptClass, ∀ b ∈ c.bitFields, (c.bitFields.find? fun b' => b'.name == b.name) = some b := by
      intro c
      cases c <;> decide
    exact key d.cls b hb
  obtain ⟨hfit, hdis⟩ := bitFields_disjoint d.cls b hb
  refine ⟨⟨d.cls, setField b.off b.width n d.raw⟩, ?_, rfl, ?_, ?_, ?_, setField_div _ _ _ _, setField_mod _ _ _ _⟩
  · unfold Dpt.setBits
    rw [hfind]
  · rw [wf_iff]
    exact setField_lt hfit (wf_iff.1 hw) n
  · unfold Dpt.getBits
    rw [show (⟨d.cls, setField b.off b.width n d.raw⟩ : Dpt).bitField b.name = some b from hfind]
    simp only [getField_setField_same]
    unfold trunc
    push_cast
    rfl
  · intro g hg
    unfold Dpt.getBits
    have hsame : (⟨d.cls, setField b.off b.width n d.raw⟩ : Dpt).bitField g = d.bitField g := rfl
    rw [hsame]
    cases hbg : d.bitField g with
    | none => rfl
    | some b' =>
      obtain ⟨hm, hn⟩ := bitField_mem hbg
      simp only
      rw [getField_setField_disjoint (hdis b' hm (by rw [hn]; exact hg))]

example : ∃ d', (⟨.setupClima, 0xFFFFFFFF⟩ : Dpt).setBits "setpoint" (-3) = .ok d' ∧
    d'.getBits "setpoint" = .ok 253 ∧ d'.getBits "funzionamento" = .ok 15 := by
  obtain ⟨d', h1, -, -, h2, h3, -⟩ := c15_bits ⟨.setupClima, 0xFFFFFFFF⟩ (by unfold Dpt.Wf; decide) "setpoint" 8 8
    (by decide) (-3)
  exact ⟨d', h1, h2, by rw [h3 _ (by decide)]; rfl⟩

/-! ## Properties of datapoints -/

theorem props_ok (c : DptClass) :
    ∀ p ∈ c.props, p.off + p.width ≤ 8 * Spec.octets c ∧ p.name ≠ "decoded_value" ∧
      (c.props.find? fun p' => p'.name == p.name) = some p ∧
      (p.kind = .temperatura → p.off = 0 ∧ p.width = 9) ∧
      ∀ p' ∈ c.props, p'.name ≠ p.name → p.off + p.width ≤ p'.off ∨ p'.off + p'.width ≤ p.off := by
  cases c <;> decide

theorem findProp_mem {d : Dpt} {f : String} {p : DptProp} (h : d.findProp f = some p) : p ∈ d.cls.props ∧ p.name = f := by
  unfold Dpt.findProp at h
  exact ⟨List.mem_of_find?_eq_some h, by simpa using List.find?_some h⟩

theorem trunc_mod (a b : Nat) (t : Int) : trunc b (t / 2 ^ a) * 2 ^ a + trunc a t = trunc (a + b) t := by
  apply Int.ofNat.inj
  show ((trunc b (t / 2 ^ a) * 2 ^ a + trunc a t : Nat) : Int) = (trunc (a + b) t : Nat)
  push_cast
  rw [trunc_cast, trunc_cast, trunc_cast]
  push_cast
  rw [pow_add]
  have h2 : (0 : Int) < 2 ^ a := by positivity
  rw [Int.emod_def t (2 ^ a * 2 ^ b), Int.emod_def t (2 ^ a), Int.emod_def (t / 2 ^ a) (2 ^ b),
    ← Int.ediv_ediv_of_nonneg (le_of_lt h2)]
  ring

/-- Writing two adjacent fields is writing their union. -/
theorem setField_split (off a b : Nat) (t : Int) (raw : Nat) :
    setField off a t (setField (off + a) b (t / 2 ^ a) raw) = setField off (a + b) t raw := by
  have h1 := setField_div_off (off + a) b (t / 2 ^ a) raw
  have h2 := setField_mod (off + a) b (t / 2 ^ a) raw
  have h3 : setField (off + a) b (t / 2 ^ a) raw % 2 ^ off = raw % 2 ^ off := by
    have := congrArg (· % 2 ^ off) h2
    simp only [pow_add, Nat.mod_mul_right_mod] at this
    exact this
  rw [setField_eq off a, setField_eq off (a + b), h3, h1, ← trunc_mod a b t, Nat.add_assoc off a b]
  rw [show 2 ^ (off + (a + b)) = 2 ^ (off + a) * 2 ^ b by rw [← pow_add]; ring_nf]
  rw [show 2 ^ (off + a) = 2 ^ off * 2 ^ a by rw [← pow_add]]
  ring

theorem getTemperatura_eq (raw : Nat) : Dpt.getTemperatura raw = fl64 (((getField 0 9 raw : Nat) : ℚ) / 10) := by
  unfold Dpt.getTemperatura
  rw [show getField 8 1 raw * 2 ^ 8 + getField 0 8 raw = getField 0 9 raw from getField_split 0 8 1 raw]

theorem setTemperatura_eq {v : PyVal} {t : Int} (h : Dpt.timesTen v = .ok t) (raw : Nat) :
    Dpt.setTemperatura v raw = (.ok (), setField 0 9 t raw) := by
  unfold Dpt.setTemperatura
  simp only [Py.bind, Py.lift, h, Py.modify]
  rw [← setField_split 0 8 1 t raw]

/-- A property reads nothing but its own field. -/
theorem getProp_congr {c : DptClass} {p : DptProp} (hp : p ∈ c.props) {raw raw' : Nat}
    (h : getField p.off p.width raw = getField p.off p.width raw') : Dpt.getProp p raw = Dpt.getProp p raw' := by
  unfold Dpt.getProp
  cases hk : p.kind with
  | num => simp only [h]
  | enum ms => simp only [h]
  | temperatura =>
    obtain ⟨h1, h2⟩ := (props_ok c p hp).2.2.2.1 hk
    rw [h1, h2] at h
    simp only [getTemperatura_eq, h]

/-- A property writes nothing but its own field. -/
theorem setProp_field {c : DptClass} {p : DptProp} (hp : p ∈ c.props) (v : PyVal) (raw : Nat) :
    (∃ e, Dpt.setProp p v raw = (.error e, raw)) ∨
      ∃ n : Int, Dpt.setProp p v raw = (.ok (), setField p.off p.width n raw) := by
  unfold Dpt.setProp
  cases hk : p.kind with
  | num =>
    cases v with
    | int n => exact Or.inr ⟨n, rfl⟩
    | str s => exact Or.inl ⟨.typeError, rfl⟩
    | float f => exact Or.inl ⟨.typeError, rfl⟩
  | enum ms =>
    cases v with
    | int n => exact Or.inl ⟨.typeError, rfl⟩
    | float f => exact Or.inl ⟨.typeError, rfl⟩
    | str s =>
      simp only [Py.bind, Py.lift, Py.modify]
      cases Dpt.memberCode ms s with
      | error e => exact Or.inl ⟨e, rfl⟩
      | ok code => exact Or.inr ⟨code, rfl⟩
  | temperatura =>
    obtain ⟨h1, h2⟩ := (props_ok c p hp).2.2.2.1 hk
    simp only
    cases ht : Dpt.timesTen v with
    | error e =>
      left
      refine ⟨e, ?_⟩
      unfold Dpt.setTemperatura
      simp [Py.bind, Py.lift, ht]
    | ok t =>
      right
      rw [h1, h2]
      exact ⟨t, setTemperatura_eq ht raw⟩

theorem props_names (c : DptClass) (f : String) : f ∈ Spec.properties c ↔ f ∈ c.props.map DptProp.name := by
  cases c <;> simp [Spec.properties, Spec.numbers, Spec.names, DptClass.props] <;> tauto

theorem number_prop (c : DptClass) : ∀ f ∈ Spec.numbers c, ∀ x ∈ Spec.packed 0 (Spec.fieldWidths c), x.1 = f →
    ⟨f, x.2.1, x.2.2, .num⟩ ∈ c.props := by
  cases c <;> decide

theorem name_prop (c : DptClass) : ∀ f ∈ Spec.names c, ∀ x ∈ Spec.packed 0 (Spec.fieldWidths c), x.1 = f.1 →
    ⟨f.1, x.2.1, x.2.2, .enum f.2⟩ ∈ c.props := by
  cases c <;> decide

/-- C15, at the level of properties: assigning to a property either raises and changes nothing, or changes only that
property; the raw value keeps to the octets of the type. -/
theorem c15_props (d : Dpt) (hw : d.Wf) (f : String) (v : PyVal) (hf : f ∈ Spec.properties d.cls) :
    (∃ e, Dpt.setAttr f v d = (.error e, d)) ∨
      ∃ d', Dpt.setAttr f v d = (.ok (), d') ∧ d'.cls = d.cls ∧ d'.Wf ∧ ∀ g, g ≠ f → d'.getAttr g = d.getAttr g := by
  obtain ⟨p, hp, rfl⟩ := List.mem_map.1 ((props_names d.cls f).1 hf)
  obtain ⟨hfit, -, hfind, -, hdis⟩ := props_ok d.cls p hp
  have hset : Dpt.setAttr p.name v d = Dpt.onRaw (Dpt.setProp p v) d := by
    unfold Dpt.setAttr
    rw [show d.findProp p.name = some p from hfind]
  rw [hset]
  unfold Dpt.onRaw
  rcases setProp_field hp v d.raw with ⟨e, h⟩ | ⟨n, h⟩
  · left
    exact ⟨e, by rw [h]⟩
  · right
    refine ⟨⟨d.cls, setField p.off p.width n d.raw⟩, by rw [h], rfl, ?_, ?_⟩
    · rw [wf_iff]
      exact setField_lt hfit (wf_iff.1 hw) n
    · intro g hg
      unfold Dpt.getAttr
      have hsame : (⟨d.cls, setField p.off p.width n d.raw⟩ : Dpt).findProp g = d.findProp g := rfl
      rw [hsame]
      cases hpg : d.findProp g with
      | none => rfl
      | some q =>
        obtain ⟨hm, hn⟩ := findProp_mem hpg
        simp only
        exact getProp_congr hm (getField_setField_disjoint (hdis q hm (by rw [hn]; exact hg)) n d.raw)

example : (∃ e, Dpt.setAttr "temperatura" (.float (.fin 21)) ⟨.infoClimaReport, 0xA1B2C3D4⟩ = (.error e, ⟨.infoClimaReport, 0xA1B2C3D4⟩)) ∨
    ∃ d', Dpt.setAttr "temperatura" (.float (.fin 21)) ⟨.infoClimaReport, 0xA1B2C3D4⟩ = (.ok (), d') ∧
      d'.cls = .infoClimaReport ∧ d'.Wf ∧ ∀ g, g ≠ "temperatura" → d'.getAttr g = (⟨.infoClimaReport, 0xA1B2C3D4⟩ : Dpt).getAttr g :=
  c15_props ⟨.infoClimaReport, 0xA1B2C3D4⟩ (by unfold Dpt.Wf; decide) "temperatura" _ (by decide)

theorem set_number (d : Dpt) (p : DptProp) (hp : p ∈ d.cls.props) (hk : p.kind = .num) (n : Int) :
    ∃ d', Dpt.setAttr p.name (.int n) d = (.ok (), d') ∧ d'.getAttr p.name = .ok (.int (n % 2 ^ p.width)) ∧
      (d'.raw / 2 ^ p.off % 2 ^ p.width : Nat) = n % 2 ^ p.width := by
  obtain ⟨-, -, hfind, -, -⟩ := props_ok d.cls p hp
  refine ⟨⟨d.cls, setField p.off p.width n d.raw⟩, ?_, ?_, ?_⟩
  · unfold Dpt.setAttr
    rw [show d.findProp p.name = some p from hfind]
    simp [Dpt.onRaw, Dpt.setProp, hk, Py.modify]
  · unfold Dpt.getAttr
    rw [show (⟨d.cls, setField p.off p.width n d.raw⟩ : Dpt).findProp p.name = some p from hfind]
    simp only [Dpt.getProp, hk, getField_setField_same]
    rw [trunc_cast]
    push_cast
    rfl
  · have h := getField_setField_same p.off p.width n d.raw
    unfold getField at h
    simp only
    rw [h, trunc_cast]
    push_cast
    rfl

/-- C15: a numeric property given an integer stores it modulo the width of its field, in the bits of the field, and reads
back that. -/
theorem c15_number (d : Dpt) (f : String) (off w : Nat) (hf : f ∈ Spec.numbers d.cls)
    (hx : (f, off, w) ∈ Spec.packed 0 (Spec.fieldWidths d.cls)) (n : Int) :
    ∃ d', Dpt.setAttr f (.int n) d = (.ok (), d') ∧ d'.getAttr f = .ok (.int (n % 2 ^ w)) ∧
      (d'.raw / 2 ^ off % 2 ^ w : Nat) = n % 2 ^ w :=
  set_number d _ (number_prop d.cls f hf _ hx rfl) rfl n

example : ∃ d', Dpt.setAttr "number" (.int 70) ⟨.sceneControl, 0x80⟩ = (.ok (), d') ∧ d'.getAttr "number" = .ok (.int 6) := by
  obtain ⟨d', h1, h2, -⟩ := c15_number ⟨.sceneControl, 0x80⟩ "number" 0 6 (by decide) (by decide) 70
  exact ⟨d', h1, h2⟩

/-- C15: whatever is assigned or encoded, under whatever key, the raw value keeps to the octets of the type and the
class stays. -/
theorem c15_width (d : Dpt) (hw : d.Wf) (key : String) (v : PyVal) :
    (Dpt.assign key v d).2.cls = d.cls ∧ (Dpt.assign key v d).2.Wf := by
  have henc : ∀ d : Dpt, d.Wf → (Dpt.encode v d).2.cls = d.cls ∧ (Dpt.encode v d).2.Wf := by
    intro d hw
    unfold Dpt.encode
    cases hk : d.cls.kind with
    | bits => exact ⟨rfl, hw⟩
    | float16 =>
      simp only [Py.bind, Py.lift]
      cases Dpt.toFloat v with
      | error e => exact ⟨rfl, hw⟩
      | ok f =>
        refine ⟨rfl, ?_⟩
        have ho : Spec.octets d.cls = 2 := by
          revert hk
          cases d.cls <;> simp [DptClass.kind, Spec.octets]
        unfold Dpt.Wf at hw ⊢
        simp only [Dpt.onRaw, ho] at hw ⊢
        cases hm : roundMantissa (divC001 f) with
        | error e => simpa [encode16Float, Py.bind, Py.lift, hm] using hw
        | ok m0 =>
          obtain ⟨k, k1, k2, k3⟩ := encode16_eq hm d.raw
          rw [k3]
          by_cases hk15 : k ≤ 15
          · rw [if_pos hk15]
            exact (store16_fields k1 hk15 d.raw).2.2.2 hw
          · rw [if_neg hk15]
            exact hw
    | float32 =>
      simp only [Py.bind, Py.lift]
      cases Dpt.toFloat v with
      | error e => exact ⟨rfl, hw⟩
      | ok f =>
        refine ⟨rfl, ?_⟩
        unfold Dpt.Wf
        simp only [Dpt.onRaw, Py.modify, octets_float32 hk]
        exact encode32_lt f
  unfold Dpt.assign
  split_ifs with h1
  · exact henc d hw
  · unfold Dpt.setAttr
    cases hp : d.findProp key with
    | some p =>
      obtain ⟨hm, -⟩ := findProp_mem hp
      simp only [Dpt.onRaw]
      rcases setProp_field hm v d.raw with ⟨e, h⟩ | ⟨n, h⟩
      · rw [h]
        exact ⟨trivial, hw⟩
      · rw [h]
        exact ⟨trivial, wf_iff.2 (setField_lt (props_ok d.cls p hm).1 (wf_iff.1 hw) n)⟩
    | none =>
      simp only
      split_ifs
      · cases v with
        | int n =>
          refine ⟨rfl, wf_iff.2 ?_⟩
          have := trunc_lt (8 * d.cls.size) n
          rwa [(c15_layout d.cls).2.1] at this
        | str s => exact ⟨rfl, hw⟩
        | float f => exact ⟨rfl, hw⟩
      · cases hk : d.cls.kind with
        | bits => exact ⟨rfl, hw⟩
        | float16 => exact ⟨rfl, hw⟩
        | float32 => exact henc d hw
      · exact ⟨rfl, hw⟩

example : (Dpt.assign "value" (.int (-1)) (Dpt.new .controlDimming)).2.Wf :=
  (c15_width (Dpt.new .controlDimming) (by unfold Dpt.Wf; decide) "value" (.int (-1))).2

/-! ## C16 enumerated fields -/

/-- The members of an enumerated property. -/
def PropKind.members : PropKind → List (String × Nat)
  | .enum ms => ms
  | _ => []

theorem enum_ok (c : DptClass) :
    ∀ p ∈ c.props, ∀ ms, p.kind = .enum ms →
      (ms.map Prod.fst).Nodup ∧ ∀ m ∈ ms, m.2 < 2 ^ p.width := by
  have key : ∀ p ∈ c.props, (p.kind.members.map Prod.fst).Nodup ∧ ∀ m ∈ p.kind.members, m.2 < 2 ^ p.width := by
    cases c <;> decide
  intro p hp ms hk
  have := key p hp
  rwa [hk] at this

theorem memberCode_of_mem {ms : List (String × Nat)} (hn : (ms.map Prod.fst).Nodup) {s : String} {code : Nat}
    (h : (s, code) ∈ ms) : Dpt.memberCode ms s = .ok code := by
  unfold Dpt.memberCode
  have : (ms.find? fun p => p.1 == s) = some (s, code) := by
    induction ms with
    | nil => simp at h
    | cons m ms ih =>
      simp only [List.map_cons, List.nodup_cons] at hn
      rw [List.find?_cons]
      rcases List.mem_cons.1 h with h | h
      · rw [← h]
        simp
      · have hne : (m.1 == s) = false := by
          rw [beq_eq_false_iff_ne]
          intro he
          exact hn.1 (he ▸ List.mem_map.2 ⟨_, h, rfl⟩)
        rw [hne]
        exact ih hn.2 h
  rw [this]

theorem memberCode_none {ms : List (String × Nat)} {s : String} (h : s ∉ ms.map Prod.fst) :
    Dpt.memberCode ms s = if s ∈ Spec.numberAttributes then .error .valueError else .error .attributeError := by
  rw [show Spec.numberAttributes = Dpt.intAttributes from rfl]
  unfold Dpt.memberCode
  have : (ms.find? fun p => p.1 == s) = none := by
    rw [List.find?_eq_none]
    intro m hm he
    exact h (List.mem_map.2 ⟨m, hm, by simpa using he⟩)
  rw [this]

theorem memberName_some {ms : List (String × Nat)} {code : Nat} (h : code ∈ ms.map Prod.snd) :
    ∃ s, (s, code) ∈ ms ∧ Dpt.memberName ms code = .ok s := by
  unfold Dpt.memberName
  cases hf : ms.find? fun p => p.2 == code with
  | none =>
    rw [List.find?_eq_none] at hf
    obtain ⟨m, hm, he⟩ := List.mem_map.1 h
    exact absurd (by simpa using he) (hf m hm)
  | some m =>
    have h1 := List.mem_of_find?_eq_some hf
    have h2 := List.find?_some hf
    simp only [beq_iff_eq] at h2
    exact ⟨m.1, by rw [← h2]; exact h1, rfl⟩

theorem memberName_none {ms : List (String × Nat)} {code : Nat} (h : code ∉ ms.map Prod.snd) :
    Dpt.memberName ms code = .error .valueError := by
  unfold Dpt.memberName
  have : (ms.find? fun p => p.2 == code) = none := by
    rw [List.find?_eq_none]
    intro m hm he
    exact h (List.mem_map.2 ⟨m, hm, by simpa using he⟩)
  rw [this]

theorem getAttr_enum {d : Dpt} {p : DptProp} {ms : List (String × Nat)} (hp : p ∈ d.cls.props) (hk : p.kind = .enum ms) :
    d.getAttr p.name = match Dpt.memberName ms (getField p.off p.width d.raw) with
      | .error e => .error e
      | .ok s => .ok (.str s) := by
  unfold Dpt.getAttr
  rw [show d.findProp p.name = some p from (props_ok d.cls p hp).2.2.1]
  simp only [Dpt.getProp, hk]
  rfl

theorem set_name (d : Dpt) (p : DptProp) (ms : List (String × Nat)) (hp : p ∈ d.cls.props) (hk : p.kind = .enum ms)
    (s : String) (code : Nat) (hs : (s, code) ∈ ms) :
    ∃ d' s', Dpt.setAttr p.name (.str s) d = (.ok (), d') ∧ d'.raw / 2 ^ p.off % 2 ^ p.width = code ∧
      d'.getAttr p.name = .ok (.str s') ∧ (s', code) ∈ ms ∧ (∀ g, g ≠ p.name → d'.getAttr g = d.getAttr g) ∧
      ((∀ s'', (s'', code) ∈ ms → s'' = s) → s' = s) := by
  obtain ⟨hn, hlt⟩ := enum_ok d.cls p hp ms hk
  have hc := memberCode_of_mem hn hs
  set d' : Dpt := ⟨d.cls, setField p.off p.width code d.raw⟩ with hd'
  have hget : getField p.off p.width d'.raw = code := by
    rw [hd']
    simp only
    rw [getField_setField_same, trunc_of_lt (hlt _ hs)]
  obtain ⟨s', h1, h2⟩ := memberName_some (ms := ms) (code := code) (List.mem_map.2 ⟨_, hs, rfl⟩)
  refine ⟨d', s', ?_, hget, ?_, h1, ?_, fun h => h s' h1⟩
  · unfold Dpt.setAttr
    rw [show d.findProp p.name = some p from (props_ok d.cls p hp).2.2.1]
    simp [Dpt.onRaw, Dpt.setProp, hk, Py.bind, Py.lift, Py.modify, hc, hd']
  · rw [getAttr_enum (d := d') hp hk, hget, h2]
  · intro g hg
    unfold Dpt.getAttr
    rw [show d'.findProp g = d.findProp g from rfl]
    cases hpg : d.findProp g with
    | none => rfl
    | some q =>
      obtain ⟨hm, hn⟩ := findProp_mem hpg
      simp only
      exact getProp_congr hm (getField_setField_disjoint
        ((props_ok d.cls p hp).2.2.2.2 q hm (by rw [hn]; exact hg)) code d.raw)

/-- C16: assigning the name of an enumeration member to an enumerated property stores the code of the member in the bits
of the field (and nothing else changes); reading gives a name of that code, the very name unless it repeats an earlier
one. -/
theorem c16_write (d : Dpt) (f : String) (off w : Nat) (ms : List (String × Nat)) (hf : (f, ms) ∈ Spec.names d.cls)
    (hx : (f, off, w) ∈ Spec.packed 0 (Spec.fieldWidths d.cls)) (s : String) (code : Nat) (hs : (s, code) ∈ ms) :
    ∃ d' s', Dpt.setAttr f (.str s) d = (.ok (), d') ∧ d'.raw / 2 ^ off % 2 ^ w = code ∧
      d'.getAttr f = .ok (.str s') ∧ (s', code) ∈ ms ∧ (∀ g, g ≠ f → d'.getAttr g = d.getAttr g) ∧
      ((∀ s'', (s'', code) ∈ ms → s'' = s) → s' = s) :=
  set_name d _ ms (name_prop d.cls _ hf _ hx rfl) rfl s code hs

example : ∃ d' s', Dpt.setAttr "command" (.str "memorizza") ⟨.vimarScene, 0x45⟩ = (.ok (), d') ∧
    d'.raw / 2 ^ 6 % 2 ^ 2 = 2 ∧ d'.getAttr "command" = .ok (.str s') := by
  obtain ⟨d', s', h1, h2, h3, -⟩ := c16_write ⟨.vimarScene, 0x45⟩ "command" 6 2
    [("attiva", 0), ("cancella", 1), ("memorizza", 2), ("identifica", 3)] (by decide) (by decide) "memorizza" 2 (by decide)
  exact ⟨d', s', h1, h2, h3⟩

theorem set_unknown (d : Dpt) (p : DptProp) (ms : List (String × Nat)) (hp : p ∈ d.cls.props) (hk : p.kind = .enum ms)
    (s : String) (hs : s ∉ ms.map Prod.fst) :
    Dpt.setAttr p.name (.str s) d = (.error (if s ∈ Spec.numberAttributes then .valueError else .attributeError), d) := by
  unfold Dpt.setAttr
  rw [show d.findProp p.name = some p from (props_ok d.cls p hp).2.2.1]
  simp only [Dpt.onRaw, Dpt.setProp, hk, Py.bind, Py.lift, memberCode_none hs]
  split_ifs <;> rfl

theorem names_field (c : DptClass) : ∀ f ∈ Spec.names c, ∃ x ∈ Spec.packed 0 (Spec.fieldWidths c), x.1 = f.1 := by
  cases c <;> decide

/-- C16: a name that is not a member raises `AttributeError` (`ValueError` if it names an attribute of numbers) and changes
nothing. -/
theorem c16_unknown (d : Dpt) (f : String) (ms : List (String × Nat)) (hf : (f, ms) ∈ Spec.names d.cls)
    (s : String) (hs : ∀ code, (s, code) ∉ ms) :
    Dpt.setAttr f (.str s) d = (.error (if s ∈ Spec.numberAttributes then .valueError else .attributeError), d) := by
  obtain ⟨x, hx, hxf⟩ := names_field d.cls _ hf
  refine set_unknown d _ ms (name_prop d.cls _ hf _ hx hxf) rfl s fun h => ?_
  obtain ⟨⟨s', code⟩, h1, rfl⟩ := List.mem_map.1 h
  exact hs code h1

example : Dpt.setAttr "action" (.str "toggle") ⟨.switch, 1⟩ = (.error .attributeError, ⟨.switch, 1⟩) :=
  c16_unknown ⟨.switch, 1⟩ "action" [("off", 0), ("on", 1)] (by decide) "toggle" (by simp)

theorem get_name (d : Dpt) (p : DptProp) (ms : List (String × Nat)) (hp : p ∈ d.cls.props) (hk : p.kind = .enum ms) :
    (∃ s, d.getAttr p.name = .ok (.str s) ∧ (s, d.raw / 2 ^ p.off % 2 ^ p.width) ∈ ms) ∨
      (d.getAttr p.name = .error .valueError ∧ ∀ s, (s, d.raw / 2 ^ p.off % 2 ^ p.width) ∉ ms) := by
  rw [getAttr_enum hp hk]
  by_cases h : getField p.off p.width d.raw ∈ ms.map Prod.snd
  · obtain ⟨s, h1, h2⟩ := memberName_some h
    exact Or.inl ⟨s, by rw [h2], h1⟩
  · refine Or.inr ⟨by rw [memberName_none h], fun s hs => h (List.mem_map.2 ⟨_, hs, rfl⟩)⟩

/-- C16: reading an enumerated property gives a name of the stored code, or raises `ValueError` if it has none. -/
theorem c16_read (d : Dpt) (f : String) (off w : Nat) (ms : List (String × Nat)) (hf : (f, ms) ∈ Spec.names d.cls)
    (hx : (f, off, w) ∈ Spec.packed 0 (Spec.fieldWidths d.cls)) :
    (∃ s, d.getAttr f = .ok (.str s) ∧ (s, d.raw / 2 ^ off % 2 ^ w) ∈ ms) ∨
      (d.getAttr f = .error .valueError ∧ ∀ s, (s, d.raw / 2 ^ off % 2 ^ w) ∉ ms) :=
  get_name d _ ms (name_prop d.cls _ hf _ hx rfl) rfl

example : (⟨.setupClima, 0x0A000000⟩ : Dpt).getAttr "funzionamento" = .error .valueError := by
  rcases c16_read ⟨.setupClima, 0x0A000000⟩ "funzionamento" 24 4 Spec.modes (by decide) (by decide) with ⟨s, h, hs⟩ | h
  · simp [Spec.modes] at hs
  · exact h.1

/-- C16: the only datapoints whose description raises are climate datapoints whose operating mode is one of the
undefined codes 9 to 13 and 15. -/
theorem c16_undefined (d : Dpt) :
    d.describe = .error .valueError ↔
      (d.cls = .setupClima ∨ d.cls = .infoClimaReport) ∧ d.raw / 2 ^ 24 % 16 ∈ [9, 10, 11, 12, 13, 15] := by
  obtain ⟨c, raw⟩ := d
  have enum1 : ∀ a b : String, ∀ off, ∃ s, Dpt.memberName [(a, 0), (b, 1)] (getField off 1 raw) = .ok s := by
    intro a b off
    have : getField off 1 raw < 2 := getField_lt off 1 raw
    have h2 : getField off 1 raw = 0 ∨ getField off 1 raw = 1 := by omega
    rcases h2 with h2 | h2 <;> rw [h2]
    · exact ⟨a, rfl⟩
    · exact ⟨b, rfl⟩
  have enum2 : ∃ s, Dpt.memberName [("attiva", 0), ("cancella", 1), ("memorizza", 2), ("identifica", 3)]
      (getField 6 2 raw) = .ok s := by
    have : getField 6 2 raw < 4 := getField_lt 6 2 raw
    have h2 : getField 6 2 raw = 0 ∨ getField 6 2 raw = 1 ∨ getField 6 2 raw = 2 ∨ getField 6 2 raw = 3 := by omega
    rcases h2 with h2 | h2 | h2 | h2 <;> rw [h2]
    exacts [⟨_, rfl⟩, ⟨_, rfl⟩, ⟨_, rfl⟩, ⟨_, rfl⟩]
  have enumF : (Dpt.memberName funzionamentoMembers (getField 24 4 raw) = .error .valueError ∧
      raw / 2 ^ 24 % 16 ∈ [9, 10, 11, 12, 13, 15]) ∨
      (∃ s, Dpt.memberName funzionamentoMembers (getField 24 4 raw) = .ok s) ∧
        raw / 2 ^ 24 % 16 ∉ [9, 10, 11, 12, 13, 15] := by
    have hlt : getField 24 4 raw < 16 := getField_lt 24 4 raw
    have he : raw / 2 ^ 24 % 16 = getField 24 4 raw := rfl
    rw [he]
    generalize getField 24 4 raw = x at hlt
    have key : ∀ x < 16, (Dpt.memberName funzionamentoMembers x = .error .valueError ∧ x ∈ [9, 10, 11, 12, 13, 15]) ∨
        ((Dpt.memberName funzionamentoMembers x).toBool = true ∧
          x ∉ [9, 10, 11, 12, 13, 15]) := by
      decide
    rcases key x hlt with h | ⟨h, h'⟩
    · exact Or.inl h
    · right
      refine ⟨?_, h'⟩
      cases hm : Dpt.memberName funzionamentoMembers x with
      | ok s => exact ⟨s, rfl⟩
      | error e => rw [hm] at h; cases h
  have hsimp := enum1
  cases c
  case setupClima =>
    obtain ⟨s1, h1⟩ := enum1 "inverno" "estate" 29
    obtain ⟨s2, h2⟩ := enum1 "celsius" "farenheit" 23
    simp only [Dpt.describe, DptClass.props, Dpt.describeProps, Dpt.getProp, stagioneMembers, h1, h2, DptClass.kind]
    rcases enumF with ⟨h, h'⟩ | ⟨⟨s, h⟩, h'⟩
    · simp only [h, true_or, true_and, h']
    · simp only [h, true_or, true_and, h', iff_false]
      simp
  case infoClimaReport =>
    obtain ⟨s1, h1⟩ := enum1 "inverno" "estate" 29
    simp only [Dpt.describe, DptClass.props, Dpt.describeProps, Dpt.getProp, stagioneMembers, h1, DptClass.kind]
    rcases enumF with ⟨h, h'⟩ | ⟨⟨s, h⟩, h'⟩
    · simp only [h, or_true, true_and, h']
    · simp only [h, or_true, true_and, h', iff_false]
      simp
  case vimarScene =>
    obtain ⟨s, h⟩ := enum2
    simp [Dpt.describe, DptClass.props, Dpt.describeProps, Dpt.getProp, DptClass.kind, h]
  case sceneControl =>
    obtain ⟨s, h⟩ := enum1 "activate" "learn" 7
    simp [Dpt.describe, DptClass.props, Dpt.describeProps, Dpt.getProp, DptClass.kind, h]
  case controlDimming =>
    obtain ⟨s, h⟩ := enum1 "down" "up" 3
    simp [Dpt.describe, DptClass.props, Dpt.describeProps, Dpt.getProp, DptClass.kind, h]
  case switch =>
    obtain ⟨s, h⟩ := enum1 "off" "on" 0
    simp [Dpt.describe, DptClass.props, Dpt.describeProps, Dpt.getProp, DptClass.kind, h]
  case infoSwitch =>
    obtain ⟨s, h⟩ := enum1 "off" "on" 0
    simp [Dpt.describe, DptClass.props, Dpt.describeProps, Dpt.getProp, DptClass.kind, h]
  case alarm =>
    obtain ⟨s, h⟩ := enum1 "no_alarm" "alarm" 0
    simp [Dpt.describe, DptClass.props, Dpt.describeProps, Dpt.getProp, DptClass.kind, h]
  case start =>
    obtain ⟨s, h⟩ := enum1 "stop" "start" 0
    simp [Dpt.describe, DptClass.props, Dpt.describeProps, Dpt.getProp, DptClass.kind, h]
  case upDown =>
    obtain ⟨s, h⟩ := enum1 "up" "down" 0
    simp [Dpt.describe, DptClass.props, Dpt.describeProps, Dpt.getProp, DptClass.kind, h]
  all_goals simp [Dpt.describe, DptClass.props, Dpt.describeProps, DptClass.kind]

example : (⟨.infoClimaReport, 0x0F123456⟩ : Dpt).describe = .error .valueError :=
  (c16_undefined _).2 ⟨Or.inr rfl, by decide⟩

/-! ## C17 describe and rebuild -/

/-- Ten times the double nearest to a tenth of a 9 bit number, truncated, is the number. -/
theorem timesTen_tenth : ∀ n : Nat, n < 512 → Dpt.timesTen (.float (fl64 ((n : ℚ) / 10))) = .ok (n : Int) := by
  decide +kernel

/-- Assigning to a property what it read elsewhere copies the field. -/
theorem setProp_getProp {c : DptClass} {p : DptProp} (hp : p ∈ c.props) {v : PyVal} {raw0 : Nat}
    (h : Dpt.getProp p raw0 = .ok v) (raw : Nat) :
    Dpt.setProp p v raw = (.ok (), setField p.off p.width (getField p.off p.width raw0 : Nat) raw) := by
  unfold Dpt.getProp at h
  unfold Dpt.setProp
  cases hk : p.kind with
  | num =>
    rw [hk] at h
    simp only [Except.ok.injEq] at h
    subst h
    rfl
  | enum ms =>
    rw [hk] at h
    simp only at h
    obtain ⟨hn, -⟩ := enum_ok c p hp ms hk
    by_cases hc : getField p.off p.width raw0 ∈ ms.map Prod.snd
    · obtain ⟨s, h1, h2⟩ := memberName_some hc
      rw [h2] at h
      simp only [Except.ok.injEq] at h
      subst h
      simp only [Py.bind, Py.lift, Py.modify, memberCode_of_mem hn h1]
    · rw [memberName_none hc] at h
      simp at h
  | temperatura =>
    obtain ⟨h1, h2⟩ := (props_ok c p hp).2.2.2.1 hk
    rw [hk] at h
    simp only [Except.ok.injEq] at h
    subst h
    rw [h1, h2]
    simp only
    apply setTemperatura_eq
    rw [getTemperatura_eq]
    exact timesTen_tenth _ (getField_lt 0 9 raw0)

theorem rebuild_fold (c : DptClass) (raw0 : Nat) (l : List (String × PyVal))
    (hl : ∀ kv ∈ l, ∃ p ∈ c.props, p.name = kv.1 ∧ Dpt.getProp p raw0 = .ok kv.2) (raw : Nat) :
    ∃ raw', Py.forEach l (fun kv => Dpt.assign kv.1 kv.2) ⟨c, raw⟩ = (.ok (), ⟨c, raw'⟩) ∧
      (∀ p ∈ c.props, p.name ∈ l.map Prod.fst → getField p.off p.width raw' = getField p.off p.width raw0) ∧
      (∀ p ∈ c.props, p.name ∉ l.map Prod.fst → getField p.off p.width raw' = getField p.off p.width raw) ∧
      (raw < 2 ^ (8 * Spec.octets c) → raw' < 2 ^ (8 * Spec.octets c)) := by
  induction l generalizing raw with
  | nil => exact ⟨raw, rfl, by simp, by simp, id⟩
  | cons kv l ih =>
    obtain ⟨p, hp, hpn, hpv⟩ := hl kv (by simp)
    obtain ⟨hfit, hdec, hfind, -, hdis⟩ := props_ok c p hp
    set raw1 := setField p.off p.width (getField p.off p.width raw0 : Nat) raw with hraw1
    obtain ⟨raw', h1, h2, h3, h4⟩ := ih (fun kv' h => hl kv' (by simp [h])) raw1
    have hstep : Dpt.assign kv.1 kv.2 ⟨c, raw⟩ = (.ok (), ⟨c, raw1⟩) := by
      unfold Dpt.assign
      rw [← hpn, if_neg hdec]
      unfold Dpt.setAttr
      rw [show (⟨c, raw⟩ : Dpt).findProp p.name = some p from hfind]
      simp only [Dpt.onRaw, setProp_getProp hp hpv, hraw1]
    have hself : getField p.off p.width raw1 = getField p.off p.width raw0 := by
      rw [hraw1, getField_setField_same, trunc_of_lt (getField_lt _ _ _)]
    have hother : ∀ q ∈ c.props, q.name ≠ p.name → getField q.off q.width raw1 = getField q.off q.width raw := by
      intro q hq hne
      rw [hraw1, getField_setField_disjoint (hdis q hq hne)]
    refine ⟨raw', ?_, ?_, ?_, ?_⟩
    · unfold Py.forEach
      simp only [Py.bind, hstep]
      exact h1
    · intro q hq hm
      by_cases hin : q.name ∈ l.map Prod.fst
      · exact h2 q hq hin
      · rw [List.map_cons, List.mem_cons] at hm
        have hqn : q.name = p.name := by
          rcases hm with hm | hm
          · rw [hm, hpn]
          · exact absurd hm hin
        have hqp : q = p := by
          have := (props_ok c q hq).2.2.1
          rw [hqn, hfind] at this
          exact (Option.some.inj this).symm
        rw [h3 q hq hin, hqp, hself]
    · intro q hq hm
      rw [List.map_cons, List.mem_cons, not_or] at hm
      rw [h3 q hq hm.2, hother q hq (by rw [hpn]; exact hm.1)]
    · intro hlt
      exact h4 (setField_lt hfit hlt _)

theorem describeProps_congr {raw raw' : Nat} {ps : List DptProp}
    (h : ∀ p ∈ ps, Dpt.getProp p raw' = Dpt.getProp p raw) : Dpt.describeProps raw' ps = Dpt.describeProps raw ps := by
  induction ps with
  | nil => rfl
  | cons p ps ih =>
    unfold Dpt.describeProps
    rw [h p (by simp), ih fun q hq => h q (by simp [hq])]

theorem describeProps_ok {raw : Nat} {ps : List DptProp} {kvs : List (String × PyVal)}
    (h : Dpt.describeProps raw ps = .ok kvs) :
    kvs.map Prod.fst = ps.map DptProp.name ∧ ∀ kv ∈ kvs, ∃ p ∈ ps, p.name = kv.1 ∧ Dpt.getProp p raw = .ok kv.2 := by
  induction ps generalizing kvs with
  | nil =>
    simp only [Dpt.describeProps, Except.ok.injEq] at h
    subst h
    simp
  | cons p ps ih =>
    unfold Dpt.describeProps at h
    cases hg : Dpt.getProp p raw with
    | error e => simp [hg] at h
    | ok v =>
      cases hd : Dpt.describeProps raw ps with
      | error e => simp [hg, hd] at h
      | ok kvs' =>
        simp only [hg, hd, Except.ok.injEq] at h
        subst h
        obtain ⟨h1, h2⟩ := ih hd
        refine ⟨by simp [h1], ?_⟩
        intro kv hkv
        rcases List.mem_cons.1 hkv with rfl | hkv
        · exact ⟨p, by simp, rfl, hg⟩
        · obtain ⟨q, hq, h3⟩ := h2 kv hkv
          exact ⟨q, by simp [hq], h3⟩

/-- The types have the names of the specification. -/
theorem name_type (c : DptClass) : c.name = Spec.typeName c := by cases c <;> rfl

theorem ofName_name (c : DptClass) : DptClass.ofName c.name = some c := by cases c <;> decide

theorem make_name (c : DptClass) (l : List (String × PyVal)) :
    Dpt.make c.name l = match Py.forEach l (fun kv => Dpt.assign kv.1 kv.2) (Dpt.new c) with
      | (.ok _, d) => .ok d
      | (.error e, _) => .error e := by
  unfold Dpt.make
  rw [ofName_name]
  rfl

theorem describe_bits {c : DptClass} (hk : c.kind = .bits) (hp : c.props ≠ []) (raw : Nat) :
    (⟨c, raw⟩ : Dpt).describe = match Dpt.describeProps raw c.props with
      | .error e => .error e
      | .ok kvs => .ok (c.name, kvs) := by
  unfold Dpt.describe
  simp only [hk, if_neg hp]
  rfl

/-- The types whose description determines the raw value. -/
def Covered (d : Dpt) : Prop :=
  d.cls = .brightness ∨ d.cls = .vimarScene ∨
    (Spec.isFloat32 d.cls = true ∧ (d.raw / 2 ^ 23 % 256 ≠ 255 ∨ d.raw % 2 ^ 23 = 0))

/-- C17: a datapoint rebuilt from the items of its description, in whatever order they come, has the same description
(for every datapoint that has one, but the 2-octet float 0xF800, `c17_refuted`); it is the same datapoint if the description covers
every bit. -/
theorem c17_rebuild_partial (d : Dpt) (hw : d.Wf) (hx : Spec.isFloat16 d.cls = true → d.raw ≠ 0xF800) (name : String)
    (kvs : List (String × PyVal)) (h : d.describe = .ok (name, kvs)) (l : List (String × PyVal)) (hl : l.Perm kvs) :
    ∃ d', Dpt.make name l = .ok d' ∧ d'.Wf ∧ d'.describe = .ok (name, kvs) ∧ (Covered d → d' = d) := by
  obtain ⟨c, raw⟩ := d
  cases hk : c.kind with
  | bits =>
    by_cases hp : c.props = []
    · have hc : c = .brightness := by
        revert hk hp
        cases c <;> simp [DptClass.kind, DptClass.props]
      subst hc
      have hd : (⟨.brightness, raw⟩ : Dpt).describe = .ok ("DPT_Brightness", [("value", .int raw)]) := rfl
      rw [hd] at h
      simp only [Except.ok.injEq, Prod.mk.injEq] at h
      obtain ⟨rfl, rfl⟩ := h
      have hl' : l = [("value", .int raw)] := List.perm_singleton.1 hl
      subst hl'
      have hraw : raw < 2 ^ 8 := wf_iff.1 hw
      refine ⟨⟨.brightness, raw⟩, ?_, hw, hd, fun _ => rfl⟩
      have := make_name .brightness [("value", .int raw)]
      rw [show DptClass.brightness.name = "DPT_Brightness" from rfl] at this
      rw [this]
      have ht : trunc (8 * 1) (raw : Int) = raw := trunc_of_lt hraw
      simp [Py.forEach, Py.bind, Py.pure, Dpt.assign, Dpt.setAttr, Dpt.new, Dpt.findProp, DptClass.props, Dpt.setValue,
        DptClass.size, trunc_of_lt hraw]
    · rw [describe_bits hk hp] at h
      cases hd : Dpt.describeProps raw c.props with
      | error e => simp [hd] at h
      | ok kvs' =>
        simp only [hd, Except.ok.injEq, Prod.mk.injEq] at h
        obtain ⟨rfl, rfl⟩ := h
        obtain ⟨k1, k2⟩ := describeProps_ok hd
        obtain ⟨raw', h1, h2, -, h4⟩ := rebuild_fold c raw l (fun kv hkv => k2 kv (hl.mem_iff.1 hkv)) 0
        have hall : ∀ p ∈ c.props, getField p.off p.width raw' = getField p.off p.width raw := by
          intro p hp'
          apply h2 p hp'
          rw [(hl.map Prod.fst).mem_iff, k1]
          exact List.mem_map.2 ⟨p, hp', rfl⟩
        refine ⟨⟨c, raw'⟩, ?_, wf_iff.2 (h4 (Nat.two_pow_pos _)), ?_, ?_⟩
        · rw [make_name]
          unfold Dpt.new
          rw [h1]
        · rw [describe_bits hk hp, describeProps_congr fun p hp' => getProp_congr hp' (hall p hp'), hd]
        · rintro (hc | hc | ⟨hc, -⟩)
          · simp only at hc
            subst hc
            exact absurd rfl hp
          · simp only at hc
            subst hc
            have a1 := hall ⟨"index", 0, 6, .num⟩ (by decide)
            have a2 := hall ⟨"command", 6, 2, .enum [("attiva", 0), ("cancella", 1), ("memorizza", 2), ("identifica", 3)]⟩
              (by decide)
            simp only [getField] at a1 a2
            have b1 : raw < 2 ^ 8 := wf_iff.1 hw
            have b2 : raw' < 2 ^ 8 := h4 (Nat.two_pow_pos _)
            congr 1
            omega
          · simp only at hc
            rw [kind_float32.1 hc] at hk
            exact absurd hk (by decide)
  | float16 =>
    have hprops : c.props = [] := by
      revert hk
      cases c <;> simp [DptClass.kind, DptClass.props]
    have hdesc : ∀ r, (⟨c, r⟩ : Dpt).describe = .ok (c.name, [("decoded_value", .float (decode16 r))]) := by
      intro r
      unfold Dpt.describe
      simp only [hprops, Dpt.describeProps, hk, List.nil_append]
    rw [hdesc] at h
    simp only [Except.ok.injEq, Prod.mk.injEq] at h
    obtain ⟨rfl, rfl⟩ := h
    have hl' := List.perm_singleton.1 hl
    subst hl'
    obtain ⟨f, r, h1, h2, h3, h4⟩ := c19_stable ⟨c, raw⟩ (Dpt.new c) (kind_float16.2 hk) (kind_float16.2 hk) hw (hx (kind_float16.2 hk))
    have hf : f = decode16 raw := by
      unfold Dpt.decode at h1
      simp only [hk, Except.ok.injEq] at h1
      exact h1.symm
    subst hf
    obtain ⟨rc, rr⟩ := r
    simp only at h3
    subst h3
    refine ⟨⟨rc, rr⟩, ?_, ?_, ?_, ?_⟩
    · rw [make_name]
      simp only [Py.forEach, Py.bind, Py.pure, Dpt.assign, if_true]
      rw [h2]
    · have := (c15_width (Dpt.new rc) (by unfold Dpt.Wf Dpt.new; positivity) "decoded_value" (.float (decode16 raw))).2
      unfold Dpt.assign at this
      rw [if_pos rfl, h2] at this
      exact this
    · rw [hdesc]
      unfold Dpt.decode at h4
      have hk' : rc.kind = .float16 := hk
      simp only [hk', Except.ok.injEq] at h4
      rw [h4]
    · rintro (hc | hc | ⟨hc, -⟩)
      · simp only at hc
        subst hc
        exact absurd hk (by decide)
      · simp only at hc
        subst hc
        exact absurd hk (by decide)
      · exact absurd (hk.symm.trans (kind_float32.1 hc)) (by decide)
  | float32 =>
    have hprops : c.props = [] := by
      revert hk
      cases c <;> simp [DptClass.kind, DptClass.props]
    have hdesc : ∀ r, (⟨c, r⟩ : Dpt).describe = .ok (c.name, [("decoded_value", .float (decode32 r))]) := by
      intro r
      unfold Dpt.describe
      simp only [hprops, Dpt.describeProps, hk, List.nil_append]
    rw [hdesc] at h
    simp only [Except.ok.injEq, Prod.mk.injEq] at h
    obtain ⟨rfl, rfl⟩ := h
    have hl' := List.perm_singleton.1 hl
    subst hl'
    have hraw : raw < 2 ^ 32 := by
      have := wf_iff.1 hw
      rwa [octets_float32 hk] at this
    have henc : Dpt.encode (.float (decode32 raw)) (Dpt.new c) = (.ok (), ⟨c, encode32 (decode32 raw)⟩) := by
      unfold Dpt.encode Dpt.new
      simp only [hk, Py.bind, Py.lift, Dpt.toFloat, Dpt.onRaw, Py.modify]
    refine ⟨⟨c, encode32 (decode32 raw)⟩, ?_, ?_, ?_, ?_⟩
    · rw [make_name]
      simp only [Py.forEach, Py.bind, Py.pure, Dpt.assign, if_true]
      rw [henc]
    · unfold Dpt.Wf
      simp only [octets_float32 hk]
      exact encode32_lt _
    · rw [hdesc]
      by_cases hf : getField 23 8 raw ≠ 255 ∨ getField 0 23 raw = 0
      · rw [encode32_decode32 hraw hf]
      · push Not at hf
        have hnan : decode32 raw = .nan := by
          unfold decode32
          simp only [hf.1, if_true, if_neg hf.2]
        rw [hnan]
        rfl
    · rintro (hc | hc | ⟨-, hc⟩)
      · simp only at hc
        subst hc
        exact absurd hk (by decide)
      · simp only at hc
        subst hc
        exact absurd hk (by decide)
      · rw [encode32_decode32 hraw (by simpa [getField] using hc)]

example : ∃ d', Dpt.make "DPTInfoClimaReport" [("temperatura", .float (fl64 (217 / 10))), ("setpoint", .int 40),
      ("stagione", .str "estate"), ("funzionamento", .str "manuale")] = .ok d' ∧
    d'.describe = (⟨.infoClimaReport, 0x262800D9⟩ : Dpt).describe := by
  obtain ⟨d', h1, -, h2, -⟩ := c17_rebuild_partial ⟨.infoClimaReport, 0x262800D9⟩ (by unfold Dpt.Wf; decide) (by decide)
    "DPTInfoClimaReport" [("funzionamento", .str "manuale"), ("stagione", .str "estate"), ("setpoint", .int 40),
      ("temperatura", .float (fl64 (217 / 10)))] (by decide +kernel) _ (List.reverse_perm _).symm.symm
  refine ⟨d', h1, ?_⟩
  rw [h2]
  decide +kernel

/-- C17 is false for the 2-octet float 0xF800: its description exists, but cannot be made a datapoint again. -/
theorem c17_refuted : ∃ (d : Dpt) (name : String) (kvs : List (String × PyVal)), d.Wf ∧ d.describe = .ok (name, kvs) ∧
    Dpt.make name kvs = .error .exception :=
  ⟨⟨.valueTemp, 0xF800⟩, "DPT_Value_Temp", [("decoded_value", .float (fl64 (-67108864 / 100)))], by unfold Dpt.Wf; decide,
    by decide +kernel, by decide +kernel⟩

/-- C17: a description begins with the name of the type. -/
theorem c17_name (d : Dpt) (name : String) (kvs : List (String × PyVal)) (h : d.describe = .ok (name, kvs)) :
    name = Spec.typeName d.cls := by
  rw [← name_type]
  unfold Dpt.describe at h
  cases hp : Dpt.describeProps d.raw d.cls.props with
  | error e => rw [hp] at h; cases h
  | ok l =>
    rw [hp] at h
    simp only [] at h
    cases hk : d.cls.kind <;> rw [hk] at h <;> simp only [Except.ok.injEq, Prod.mk.injEq] at h <;> exact h.1.symm

example : (⟨.start, 1⟩ : Dpt).describe = .ok ("DPT_Start", [("action", .str "start")]) := by decide

end Knx
