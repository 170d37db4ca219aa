import Verif.Spec.Factory
import Verif.Props.FieldOrder
import Verif.Props.Float16
import Verif.Props.Float32

/-!
# C92 What the factory refuses
-/

namespace Knx

open Spec

/-- Rounding half to even reaches an even number from a half below it on. -/
theorem rhe_reaches {n : Int} (hn : n % 2 = 0) (x : ℚ) : n ≤ rhe x ↔ (n : ℚ) - 1 / 2 ≤ x := by
  constructor
  · intro h
    have h1 := rhe_err x
    rw [abs_le] at h1
    have h2 : (n : ℚ) ≤ (rhe x : ℚ) := by exact_mod_cast h
    linarith
  · intro h
    refine le_trans (le_of_eq ?_) (rhe_mono h)
    have hf : ⌊(n : ℚ) - 1 / 2⌋ = n - 1 := by
      rw [Int.floor_eq_iff]
      push_cast
      constructor <;> linarith
    unfold rhe
    rw [hf]
    push_cast
    rw [if_neg (by linarith), if_neg (by linarith), if_neg (by omega)]
    omega

/-- What encoding in 16 bits raises. -/
theorem encode16_refused (f : PyFloat) (raw : Nat) :
    (∀ e, refusedFloat16 f = some e → encode16Float f raw = (.error e, raw)) ∧
      (refusedFloat16 f = none → ∃ raw', encode16Float f raw = (.ok (), raw')) := by
  have hraise : ∀ e, roundMantissa (divC001 f) = .error e → encode16Float f raw = (.error e, raw) := by
    intro e h
    simp only [encode16Float, Py.bind, Py.lift, h]
  have hround : ∀ m, roundMantissa (divC001 f) = .ok m →
      (2 ^ 26 ≤ m → encode16Float f raw = (.error .exception, raw)) ∧
        (m < 2 ^ 26 → ∃ raw', encode16Float f raw = (.ok (), raw')) := by
    intro m h
    obtain ⟨k, k1, k2, k3⟩ := encode16_eq h raw
    have hk := (normalise_bound k1 k2).1
    constructor
    · intro hm
      rw [k3, if_neg (fun h => absurd (hk.1 h) (by omega))]
    · intro hm
      rw [k3, if_pos (hk.2 hm)]
      exact ⟨_, rfl⟩
  cases f with
  | nan =>
    refine ⟨fun e h => ?_, fun h => by cases h⟩
    cases h
    exact hraise _ rfl
  | inf n =>
    refine ⟨fun e h => ?_, fun h => by cases h⟩
    cases h
    exact hraise _ rfl
  | negZero =>
    refine ⟨fun e h => (by cases h), fun _ => ?_⟩
    exact (hround 0 rfl).2 (by norm_num)
  | fin q =>
    unfold refusedFloat16
    simp only
    simp only [divC001] at hraise hround
    cases hq : fl64 (q / c001) with
    | nan =>
      exfalso
      unfold fl64 at hq
      simp only at hq
      split_ifs at hq
    | inf n =>
      rw [hq] at hraise
      refine ⟨fun e h => ?_, fun h => by cases h⟩
      cases h
      exact hraise _ rfl
    | negZero =>
      rw [hq] at hround
      refine ⟨fun e h => (by cases h), fun _ => ?_⟩
      exact (hround 0 rfl).2 (by norm_num)
    | fin y =>
      rw [hq] at hraise hround
      simp only
      have hn : ((rhe (100 * y)).natAbs : Int) = rhe (100 * |y|) := by
        rw [rhe_natAbs, abs_mul, abs_of_pos (by norm_num : (0 : ℚ) < 100)]
      have h28 : 10 ^ 28 ≤ (rhe (100 * y)).natAbs ↔ 10 ^ 26 - 1 / 200 ≤ |y| := by
        have := rhe_reaches (n := 10 ^ 28) (by norm_num) (100 * |y|)
        rw [← hn] at this
        constructor
        · intro h
          have h1 := this.1 (by exact_mod_cast h)
          push_cast at h1
          linarith
        · intro h
          have h1 := this.2 (by push_cast; linarith)
          exact_mod_cast h1
      have h26 : 2 ^ 26 ≤ (rhe (100 * y)).natAbs / 100 ↔ 2 ^ 26 - 1 / 200 ≤ |y| := by
        have := rhe_reaches (n := 2 ^ 26 * 100) (by norm_num) (100 * |y|)
        rw [← hn] at this
        rw [Nat.le_div_iff_mul_le (by norm_num)]
        constructor
        · intro h
          have h1 := this.1 (by exact_mod_cast h)
          push_cast at h1
          linarith
        · intro h
          have h1 := this.2 (by push_cast; linarith)
          exact_mod_cast h1
      have hm : roundMantissa (.fin y) = if 10 ^ 26 - 1 / 200 ≤ |y| then .error .invalidOperation
          else .ok ((rhe (100 * y)).natAbs / 100) := by
        unfold roundMantissa
        simp only [h28]
      by_cases hy : 10 ^ 26 - 1 / 200 ≤ |y|
      · rw [if_pos hy] at hm
        rw [if_pos hy]
        refine ⟨fun e h => ?_, fun h => by cases h⟩
        cases h
        exact hraise _ hm
      · rw [if_neg hy] at hm
        rw [if_neg hy]
        obtain ⟨r1, r2⟩ := hround _ hm
        by_cases hz : 2 ^ 26 - 1 / 200 ≤ |y|
        · rw [if_pos hz]
          refine ⟨fun e h => ?_, fun h => by cases h⟩
          cases h
          exact r1 (h26.2 hz)
        · rw [if_neg hz]
          refine ⟨fun e h => (by cases h), fun _ => ?_⟩
          exact r2 (not_le.1 fun h => hz (h26.1 h))

theorem asFloat_eq (v : PyVal) : asFloat v = Dpt.toFloat v := by
  cases v with
  | int n =>
    unfold asFloat Dpt.toFloat intToFloat
    simp only
    cases fl64 n <;> rfl
  | str s => rfl
  | float f => rfl

/-- What encoding a number raises. -/
theorem encode_refused (c : DptClass) (v : PyVal) (raw : Nat) :
    (∀ e, refusedNumber c v = some e → Dpt.encode v ⟨c, raw⟩ = (.error e, ⟨c, raw⟩)) ∧
      (refusedNumber c v = none → ∃ raw', Dpt.encode v ⟨c, raw⟩ = (.ok (), ⟨c, raw'⟩)) := by
  unfold refusedNumber Dpt.encode
  rw [asFloat_eq]
  cases hk : c.kind with
  | bits =>
    have h1 : isFloat16 c = false := by
      rw [Bool.eq_false_iff]; intro h; rw [kind_float16.1 h] at hk; cases hk
    have h2 : isFloat32 c = false := by
      rw [Bool.eq_false_iff]; intro h; rw [kind_float32.1 h] at hk; cases hk
    rw [h1, h2]
    refine ⟨fun e h => ?_, fun h => by cases h⟩
    cases h
    rfl
  | float16 =>
    rw [kind_float16.2 hk]
    simp only [if_true, Py.bind, Py.lift]
    cases Dpt.toFloat v with
    | error e' =>
      refine ⟨fun e h => ?_, fun h => by cases h⟩
      cases h
      rfl
    | ok f =>
      obtain ⟨h1, h2⟩ := encode16_refused f raw
      refine ⟨fun e h => ?_, fun h => ?_⟩
      · simp only [Dpt.onRaw, h1 e h]
      · obtain ⟨raw', h⟩ := h2 h
        exact ⟨raw', by simp only [Dpt.onRaw, h]⟩
  | float32 =>
    have h1 : isFloat16 c = false := by
      rw [Bool.eq_false_iff]; intro h; rw [kind_float16.1 h] at hk; cases hk
    rw [h1, kind_float32.2 hk]
    simp only [if_true, Py.bind, Py.lift]
    cases Dpt.toFloat v with
    | error e' =>
      refine ⟨fun e h => ?_, fun h => by cases h⟩
      cases h
      rfl
    | ok f => exact ⟨fun e h => (by cases h), fun _ => ⟨_, rfl⟩⟩

/-- What setting a temperature raises. -/
theorem timesTen_refused (v : PyVal) : (∀ e, refusedTemperature v = some e → Dpt.timesTen v = .error e) ∧
    (refusedTemperature v = none → ∃ n, Dpt.timesTen v = .ok n) := by
  cases v with
  | int n => exact ⟨fun e h => (by cases h), fun _ => ⟨_, rfl⟩⟩
  | str s =>
    unfold refusedTemperature Dpt.timesTen
    simp only [pyInt_ten]
    by_cases h : Grouped s.toList ∧ (digitsOf s.toList).length ≤ 430
    · rw [if_pos h, if_pos h]
      exact ⟨fun e h => (by cases h), fun _ => ⟨_, rfl⟩⟩
    · rw [if_neg h, if_neg h]
      refine ⟨fun e h => ?_, fun h => by cases h⟩
      cases h
      rfl
  | float f =>
    cases f with
    | nan =>
      refine ⟨fun e h => ?_, fun h => by cases h⟩
      cases h
      rfl
    | inf b =>
      refine ⟨fun e h => ?_, fun h => by cases h⟩
      cases h
      rfl
    | negZero => exact ⟨fun e h => (by cases h), fun _ => ⟨_, rfl⟩⟩
    | fin q =>
      have h10 : Dpt.timesTen (.float (.fin q)) = Dpt.floatToInt (fl64 (10 * q)) := by
        rw [mul_comm 10 q]
        rfl
      rw [h10]
      unfold refusedTemperature
      simp only
      cases hq : fl64 (10 * q) with
      | nan =>
        exfalso
        unfold fl64 at hq
        simp only at hq
        split_ifs at hq
      | inf b =>
        refine ⟨fun e h => ?_, fun h => by cases h⟩
        cases h
        rfl
      | negZero => exact ⟨fun e h => (by cases h), fun _ => ⟨_, rfl⟩⟩
      | fin y => exact ⟨fun e h => (by cases h), fun _ => ⟨_, rfl⟩⟩

theorem memberCode_refused (ms : List (String × Nat)) (s : String) :
    (∀ e, refusedName ms s = some e → Dpt.memberCode ms s = .error e) ∧
      (refusedName ms s = none → ∃ n, Dpt.memberCode ms s = .ok n) := by
  unfold refusedName
  by_cases h : s ∈ ms.map Prod.fst
  · rw [if_pos h]
    refine ⟨fun e h => (by cases h), fun _ => ?_⟩
    unfold Dpt.memberCode
    cases hf : ms.find? (fun p => p.1 == s) with
    | none =>
      exfalso
      obtain ⟨p, hp, rfl⟩ := List.mem_map.1 h
      exact List.find?_eq_none.1 hf p hp (by simp)
    | some p => exact ⟨_, rfl⟩
  · rw [if_neg h, memberCode_none h]
    by_cases ha : s ∈ numberAttributes
    · rw [if_pos ha, if_pos ha]
      refine ⟨fun e h => ?_, fun h => by cases h⟩
      cases h
      rfl
    · rw [if_neg ha, if_neg ha]
      refine ⟨fun e h => ?_, fun h => by cases h⟩
      cases h
      rfl

theorem refusal_num (c : DptClass) : ∀ p ∈ c.props, p.kind = .num → p.name ≠ "decoded_value" ∧ p.name ≠ "temperatura" ∧
    p.name ∈ numbers c := by
  cases c <;> decide

theorem refusal_enum (c : DptClass) : ∀ p ∈ c.props, p.kind ≠ .num → p.kind ≠ .temperatura → p.name ≠ "decoded_value" ∧
    p.name ≠ "temperatura" ∧ p.name ∉ numbers c ∧ p.name ≠ "value" ∧ p.name ≠ "bits" := by
  cases c <;> decide

theorem refusal_temp (c : DptClass) : ∀ p ∈ c.props, p.kind = .temperatura → p.name = "temperatura" ∧
    c = .infoClimaReport := by
  cases c <;> decide

/-- What assigning a field raises, whatever the datapoint holds. -/
theorem assign_refused (c : DptClass) (k : String) (v : PyVal) (raw : Nat) :
    (∀ e, refusal c (k, v) = some e → Dpt.assign k v ⟨c, raw⟩ = (.error e, ⟨c, raw⟩)) ∧
      (refusal c (k, v) = none → ∃ raw', Dpt.assign k v ⟨c, raw⟩ = (.ok (), ⟨c, raw'⟩)) := by
  by_cases hd : k = "decoded_value"
  · subst hd
    unfold refusal Dpt.assign
    simp only [if_true]
    exact encode_refused c v raw
  by_cases hp : k ∈ properties c
  · obtain ⟨p, hpc, rfl⟩ := List.mem_map.1 ((props_names c k).1 hp)
    rw [assign_prop hpc]
    unfold refusal Dpt.setProp
    rw [if_neg hd]
    cases hk : p.kind with
    | temperatura =>
      rw [if_pos (refusal_temp c p hpc hk)]
      obtain ⟨h1, h2⟩ := timesTen_refused v
      refine ⟨fun e h => ?_, fun h => ?_⟩
      · simp only [Dpt.onRaw, Dpt.setTemperatura, Py.bind, Py.lift, h1 e h]
      · obtain ⟨n, h⟩ := h2 h
        exact ⟨_, by simp only [Dpt.onRaw, Dpt.setTemperatura, Py.bind, Py.lift, h, Py.modify]; rfl⟩
    | num =>
      obtain ⟨-, h2, h3⟩ := refusal_num c p hpc hk
      rw [if_neg (fun h => h2 h.1), if_pos (.inl h3)]
      cases v with
      | int n => exact ⟨fun e h => (by cases h), fun _ => ⟨_, rfl⟩⟩
      | str s =>
        refine ⟨fun e h => ?_, fun h => by cases h⟩
        cases h
        rfl
      | float s =>
        refine ⟨fun e h => ?_, fun h => by cases h⟩
        cases h
        rfl
    | enum ms =>
      have hkn : p.kind ≠ .num := by rw [hk]; simp
      have hkt : p.kind ≠ .temperatura := by rw [hk]; simp
      obtain ⟨-, h2, h3, h4, h5⟩ := refusal_enum c p hpc hkn hkt
      have h6 := props_enum c p hpc hkn hkt
      rw [hk] at h6
      rw [if_neg (fun h => h2 h.1), if_neg (by rintro (h | h | h); exacts [h3 h, h4 h, h5 h.1]), if_neg h5, h6]
      simp only [PropKind.members]
      cases v with
      | int n =>
        refine ⟨fun e h => ?_, fun h => by cases h⟩
        cases h
        rfl
      | float f =>
        refine ⟨fun e h => ?_, fun h => by cases h⟩
        cases h
        rfl
      | str s =>
        obtain ⟨m1, m2⟩ := memberCode_refused ms s
        refine ⟨fun e h => ?_, fun h => ?_⟩
        · simp only [Dpt.onRaw, Py.bind, Py.lift, m1 e h]
        · obtain ⟨n, h⟩ := m2 h
          exact ⟨_, by simp only [Dpt.onRaw, Py.bind, Py.lift, h, Py.modify]; rfl⟩
  · have hfind : (⟨c, raw⟩ : Dpt).findProp k = none := by
      unfold Dpt.findProp
      rw [List.find?_eq_none]
      intro p hp' hpf
      exact hp ((props_names c k).2 (List.mem_map.2 ⟨p, hp', by simpa using hpf⟩))
    have hnum : k ∉ numbers c := fun h => hp (by unfold properties; simp [h])
    have hnames : (names c).find? (fun x => x.1 == k) = none := by
      rw [List.find?_eq_none]
      intro x hx hxk
      refine hp ?_
      unfold properties
      rw [List.mem_append, List.mem_append]
      exact .inl (.inr (List.mem_map.2 ⟨x, hx, by simpa using hxk⟩))
    have htemp : ¬ (k = "temperatura" ∧ c = .infoClimaReport) := by
      rintro ⟨rfl, rfl⟩
      exact hp (by decide)
    have ha : Dpt.assign k v ⟨c, raw⟩ = Dpt.setAttr k v ⟨c, raw⟩ := by
      unfold Dpt.assign
      rw [if_neg hd]
    rw [ha]
    unfold refusal Dpt.setAttr
    simp only [if_neg hd, if_neg htemp, hfind, hnames, hnum, false_or]
    by_cases h1 : k = "value" ∨ k = "bits" ∧ c = .brightness
    · rw [if_pos h1, if_pos h1]
      cases v with
      | int n => exact ⟨fun e h => (by cases h), fun _ => ⟨_, rfl⟩⟩
      | str s =>
        refine ⟨fun e h => ?_, fun h => by cases h⟩
        cases h
        rfl
      | float s =>
        refine ⟨fun e h => ?_, fun h => by cases h⟩
        cases h
        rfl
    · rw [if_neg h1, if_neg h1]
      by_cases h2 : k = "bits"
      · rw [if_pos h2, if_pos h2]
        by_cases h3 : isFloat32 c = true
        · rw [if_pos h3, kind_float32.1 h3]
          exact encode_refused c v raw
        · rw [if_neg h3]
          have h4 : c.kind ≠ .float32 := fun h => h3 (kind_float32.2 h)
          refine ⟨fun e h => ?_, fun h => by cases h⟩
          cases h
          cases hk : c.kind with
          | bits => rfl
          | float16 => rfl
          | float32 => exact absurd hk h4
      · rw [if_neg h2, if_neg h2]
        exact ⟨fun e h => (by cases h), fun _ => ⟨raw, rfl⟩⟩

theorem fields_refused (c : DptClass) (l : List (String × PyVal)) (raw : Nat) :
    (∀ e, l.findSome? (refusal c) = some e →
        ∃ raw', Py.forEach l (fun kv => Dpt.assign kv.1 kv.2) ⟨c, raw⟩ = (.error e, ⟨c, raw'⟩)) ∧
      (l.findSome? (refusal c) = none →
        ∃ raw', Py.forEach l (fun kv => Dpt.assign kv.1 kv.2) ⟨c, raw⟩ = (.ok (), ⟨c, raw'⟩)) := by
  induction l generalizing raw with
  | nil => exact ⟨fun e h => (by cases h), fun _ => ⟨raw, rfl⟩⟩
  | cons kv l ih =>
    obtain ⟨h1, h2⟩ := assign_refused c kv.1 kv.2 raw
    rw [List.findSome?_cons]
    unfold Py.forEach
    simp only [Py.bind]
    cases hr : refusal c kv with
    | some e' =>
      simp only
      refine ⟨fun e h => ?_, fun h => by cases h⟩
      cases h
      exact ⟨raw, by rw [h1 e' hr]⟩
    | none =>
      simp only
      obtain ⟨raw', h3⟩ := h2 hr
      rw [h3]
      exact ih raw'

/-- C92: the factory raises exactly if one of the fields is refused, and it raises what the first of these gives. -/
theorem c92_raises (c : DptClass) (l : List (String × PyVal)) (e : Err) :
    Dpt.make (typeName c) l = .error e ↔ l.findSome? (refusal c) = some e := by
  rw [← name_type]
  obtain ⟨h1, h2⟩ := fields_refused c l 0
  rw [make_name]
  unfold Dpt.new
  cases h : l.findSome? (refusal c) with
  | none =>
    obtain ⟨raw', h3⟩ := h2 h
    rw [h3]
    simp
  | some e' =>
    obtain ⟨raw', h3⟩ := h1 e' h
    rw [h3]
    simp

example : Dpt.make "DPTInfoClimaReport" [("colour", .int 3), ("setpoint", .int 300), ("stagione", .str "autunno"),
    ("temperatura", .float .nan)] = .error .attributeError :=
  (c92_raises .infoClimaReport _ _).2 (by decide +kernel)

example : Dpt.make "DPT_Value_Temp" [("decoded_value", .float (.fin (10 ^ 6)))] = .error .exception :=
  (c92_raises .valueTemp _ _).2 (by decide +kernel)

/-- C92: a name that no datapoint type has is refused, and what is made is a datapoint of the type with the name. -/
theorem c92_types (s : String) (l : List (String × PyVal)) :
    ((∀ c, s ≠ typeName c) → Dpt.make s l = .error .attributeError) ∧
      ∀ d, Dpt.make s l = .ok d → typeName d.cls = s := by
  constructor
  · intro h
    have hn : DptClass.ofName s = none := by
      unfold DptClass.ofName
      rw [List.find?_eq_none]
      intro c _ hc
      exact h c (by rw [← name_type]; exact (beq_iff_eq.1 hc).symm)
    unfold Dpt.make
    rw [hn]
  · intro d h
    by_cases hs : ∃ c, s = typeName c
    · obtain ⟨c, rfl⟩ := hs
      cases hf : l.findSome? (refusal c) with
      | some e => rw [(c92_raises c l e).2 hf] at h; cases h
      | none =>
        rw [← name_type, make_name] at h
        obtain ⟨raw', h3⟩ := (fields_refused c l 0).2 hf
        unfold Dpt.new at h
        rw [h3] at h
        cases h
        rfl
    · have hn : DptClass.ofName s = none := by
        unfold DptClass.ofName
        rw [List.find?_eq_none]
        intro c _ hc
        exact hs ⟨c, by rw [← name_type]; exact (beq_iff_eq.1 hc).symm⟩
      unfold Dpt.make at h
      rw [hn] at h
      cases h

example : Dpt.make "DPT_Swich" [("action", .str "on")] = .error .attributeError :=
  (c92_types "DPT_Swich" _).1 (by intro c; cases c <;> decide)

example : (Dpt.make "DPT_Start" [("action", .str "start")]).map Dpt.cls = .ok .start := by decide

/-- C92: otherwise it makes a datapoint of the type asked for, whatever else the fields are. -/
theorem c92_makes (c : DptClass) (l : List (String × PyVal)) (h : ∀ kv ∈ l, refusal c kv = none) :
    ∃ d, Dpt.make (typeName c) l = .ok d ∧ d.cls = c := by
  rw [← name_type]
  obtain ⟨raw', h3⟩ := (fields_refused c l 0).2 (List.findSome?_eq_none_iff.2 h)
  rw [make_name]
  unfold Dpt.new
  rw [h3]
  exact ⟨_, rfl, rfl⟩

example := c92_makes .setupClima [("acton", .str "on"), ("setpoint", .int 1000), ("stagione", .str "estate")] (by decide +kernel)

theorem forEach_append {σ α : Type} (l l' : List α) (f : α → Py σ Unit) (s : σ) :
    Py.forEach (l ++ l') f s = Py.bind (Py.forEach l f) (fun _ => Py.forEach l' f) s := by
  induction l generalizing s with
  | nil => rfl
  | cons a l ih =>
    rw [List.cons_append]
    show Py.bind (f a) (fun _ => Py.forEach (l ++ l') f) s = Py.bind (Py.bind (f a) fun _ => Py.forEach l f) _ s
    simp only [Py.bind]
    rcases f a s with ⟨r, s'⟩
    cases r with
    | error e => rfl
    | ok u => exact ih s'

theorem assign_cls (c : DptClass) (l : List (String × PyVal)) (raw : Nat) (d : Dpt) (r : Except Err Unit)
    (h : Py.forEach l (fun kv => Dpt.assign kv.1 kv.2) ⟨c, raw⟩ = (r, d)) : d.cls = c := by
  obtain ⟨h1, h2⟩ := fields_refused c l raw
  cases hf : l.findSome? (refusal c) with
  | none =>
    obtain ⟨raw', h3⟩ := h2 hf
    rw [h3] at h
    cases h
    rfl
  | some e =>
    obtain ⟨raw', h3⟩ := h1 e hf
    rw [h3] at h
    cases h
    rfl

/-- Two fields of the same effect can be exchanged. -/
theorem make_exchange {c : DptClass} {m m' : List (String × PyVal)}
    (h : ∀ raw, Py.forEach m (fun kv => Dpt.assign kv.1 kv.2) ⟨c, raw⟩ =
      Py.forEach m' (fun kv => Dpt.assign kv.1 kv.2) ⟨c, raw⟩) (l l' : List (String × PyVal)) :
    Dpt.make c.name (l ++ m ++ l') = Dpt.make c.name (l ++ m' ++ l') := by
  rw [make_name, make_name, forEach_append, forEach_append]
  simp only [Py.bind]
  rw [forEach_append, forEach_append]
  simp only [Py.bind]
  unfold Dpt.new
  rcases hl : Py.forEach l (fun kv => Dpt.assign kv.1 kv.2) ⟨c, 0⟩ with ⟨r, d⟩
  have hc := assign_cls c l 0 d r hl
  obtain ⟨c', raw⟩ := d
  simp only at hc
  subst hc
  cases r with
  | error e => rfl
  | ok u => simp only [h raw]

/-- C92 is false for every field that the type does not have: it is ignored, wherever it stands and whatever its value. -/
theorem c92_unknown_refuted (c : DptClass) (k : String) (hk : k ∉ properties c) (hw : k ∉ wholeKeys) (v : PyVal)
    (l l' : List (String × PyVal)) : Dpt.make (typeName c) (l ++ [(k, v)] ++ l') = Dpt.make (typeName c) (l ++ l') := by
  rw [← name_type]
  have := make_exchange (c := c) (m := [(k, v)]) (m' := []) (fun raw => by
    simp [Py.forEach, Py.bind, assign_unknown hk hw, Py.pure]) l l'
  simpa using this

example : Dpt.make "DPT_Switch" [("acton", .str "on")] = Dpt.make "DPT_Switch" [] :=
  c92_unknown_refuted .switch "acton" (by decide) (by decide) (.str "on") [] []

/-- C92 is false for every number that does not fit: it is taken modulo the range of the property. -/
theorem c92_range_refuted (c : DptClass) (f : String) (off w : Nat) (hf : f ∈ numbers c)
    (hx : (f, off, w) ∈ packed 0 (fieldWidths c)) (n m : Int) (l l' : List (String × PyVal)) :
    Dpt.make (typeName c) (l ++ [(f, .int (n + 2 ^ w * m))] ++ l') = Dpt.make (typeName c) (l ++ [(f, .int n)] ++ l') := by
  rw [← name_type]
  refine make_exchange (fun raw => ?_) l l'
  have hp := number_prop c f hf _ hx rfl
  have e : setField off w (n + 2 ^ w * m) = setField off w n := by
    funext raw
    unfold setField
    congr 2
    unfold trunc
    push_cast
    rw [Int.add_mul_emod_self_left]
  have ha := fun v raw => assign_prop hp v raw
  simp only at ha
  simp only [Py.forEach, Py.bind, ha, Dpt.onRaw, Dpt.setProp, Py.modify, e]

example : Dpt.make "DPT_SceneControl" [("command", .str "learn"), ("number", .int 65)] =
    Dpt.make "DPT_SceneControl" [("command", .str "learn"), ("number", .int 1)] :=
  c92_range_refuted .sceneControl "number" 0 6 (by decide) (by decide) 1 1 [("command", .str "learn")] []

/-- C92 is false for the number of the whole datapoint likewise. -/
theorem c92_value_refuted (c : DptClass) (n m : Int) (l l' : List (String × PyVal)) :
    Dpt.make (typeName c) (l ++ [("value", .int (n + 2 ^ (8 * octets c) * m))] ++ l') =
      Dpt.make (typeName c) (l ++ [("value", .int n)] ++ l') := by
  rw [← name_type]
  refine make_exchange (fun raw => ?_) l l'
  have hval : ∀ n, Dpt.assign "value" (.int n) ⟨c, raw⟩ = (.ok (), Dpt.setValue ⟨c, raw⟩ n) := by
    intro n
    have hf : (⟨c, raw⟩ : Dpt).findProp "value" = none := by
      cases c <;> rfl
    unfold Dpt.assign
    rw [if_neg (by decide)]
    unfold Dpt.setAttr
    rw [hf]
    simp only [true_or, if_true]
  have e : Dpt.setValue ⟨c, raw⟩ (n + 2 ^ (8 * octets c) * m) = Dpt.setValue ⟨c, raw⟩ n := by
    have hs : c.size = octets c := by cases c <;> rfl
    unfold Dpt.setValue
    simp only [hs]
    unfold trunc
    push_cast
    rw [Int.add_mul_emod_self_left]
  simp only [Py.forEach, Py.bind, hval, e]

example : Dpt.make "DPT_Brightness" [("value", .int 300)] = Dpt.make "DPT_Brightness" [("value", .int 44)] :=
  c92_value_refuted .brightness 44 1 [] []

end Knx
