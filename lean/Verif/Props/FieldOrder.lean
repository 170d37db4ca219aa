import Verif.Spec.FieldOrder
import Verif.Props.Datapoints
import Verif.Lemmas.PyInt

/-! # C84: what the factory makes of a dictionary of fields, and that the order of the fields is without effect -/

namespace Knx

theorem setField_free {off w : Nat} {v : Nat} (h : getField off w v = 0) (x : Int) :
    setField off w x v = v + (x % 2 ^ w).toNat * 2 ^ off := by
  have h1 := setField_getField off w v
  rw [h, setField_eq] at h1
  rw [setField_eq]
  have h2 : trunc w ((0 : Nat) : Int) = 0 := by simp [trunc]
  rw [h2] at h1
  have h3 : trunc w x = (x % 2 ^ w).toNat := by unfold trunc; push_cast; rfl
  rw [h3]
  omega

theorem ite_floor (r : ℚ) : (if 0 ≤ r then ⌊r⌋ else ⌈r⌉) = if r < 0 then -⌊-r⌋ else ⌊r⌋ := by
  by_cases h : 0 ≤ r
  · rw [if_pos h, if_neg (not_lt.2 h)]
  · rw [if_neg h, if_pos (not_le.1 h), Int.floor_neg, neg_neg]

/-- What the float part of `tenfold` does with the product. -/
theorem floatToInt_cases (f : PyFloat) :
    (∃ r, f = .fin r ∧ Dpt.floatToInt f = .ok (if r < 0 then -⌊-r⌋ else ⌊r⌋)) ∨
      (f = .negZero ∧ Dpt.floatToInt f = .ok 0) ∨
      (((∃ b, f = .inf b) ∨ f = .nan) ∧ ∃ e, Dpt.floatToInt f = .error e) := by
  cases f with
  | fin r => exact Or.inl ⟨r, rfl, by rw [← ite_floor]; rfl⟩
  | negZero => exact Or.inr (Or.inl ⟨rfl, rfl⟩)
  | inf b => exact Or.inr (Or.inr ⟨Or.inl ⟨b, rfl⟩, _, rfl⟩)
  | nan => exact Or.inr (Or.inr ⟨Or.inr rfl, _, rfl⟩)

theorem timesTen_tenfold (v : PyVal) :
    (∃ n, Spec.tenfold v = some n ∧ Dpt.timesTen v = .ok n) ∨
      (Spec.tenfold v = none ∧ ∃ e, Dpt.timesTen v = .error e) := by
  cases v with
  | int n => exact Or.inl ⟨10 * n, rfl, by unfold Dpt.timesTen; rw [mul_comm]⟩
  | str s =>
    unfold Dpt.timesTen Spec.tenfold
    simp only [pyInt_ten]
    by_cases h : Spec.Grouped s.toList ∧ (Spec.digitsOf s.toList).length ≤ 430
    · rw [if_pos h, if_pos h]
      exact Or.inl ⟨_, rfl, rfl⟩
    · rw [if_neg h, if_neg h]
      exact Or.inr ⟨rfl, _, rfl⟩
  | float f =>
    cases f with
    | fin q =>
      have h10 : Dpt.timesTen (.float (.fin q)) = Dpt.floatToInt (fl64 (10 * q)) := by
        rw [mul_comm 10 q]
        rfl
      rw [h10]
      unfold Spec.tenfold
      rcases floatToInt_cases (fl64 (10 * q)) with ⟨r, h, h'⟩ | ⟨h, h'⟩ | ⟨⟨b, h⟩ | h, e, h'⟩
      · exact Or.inl ⟨_, by simp only [h], h'⟩
      · exact Or.inl ⟨_, by simp only [h], h'⟩
      · exact Or.inr ⟨by simp only [h], e, h'⟩
      · exact Or.inr ⟨by simp only [h], e, h'⟩
    | negZero => exact Or.inl ⟨0, rfl, rfl⟩
    | inf b => exact Or.inr ⟨rfl, _, rfl⟩
    | nan => exact Or.inr ⟨rfl, _, rfl⟩

/-- The tables of properties and the separate ones. -/
theorem props_tables (c : DptClass) : ∀ p ∈ c.props, Spec.fieldPlace c p.name = (p.off, p.width) ∧
    p.name ∈ Spec.properties c ∧ p.name ∉ Spec.wholeKeys ∧ (c.props.find? fun p' => p'.name == p.name) = some p ∧
    (p.kind = .temperatura → p.name = "temperatura") ∧ (p.kind ≠ .temperatura → p.name ≠ "temperatura") := by
  cases c <;> decide

theorem props_num (c : DptClass) : ∀ p ∈ c.props, p.kind = .num → p.name ∈ Spec.numbers c := by
  cases c <;> decide

theorem props_num_names (c : DptClass) : ∀ p ∈ c.props, p.kind = .num →
    (Spec.names c).find? (fun x => x.1 == p.name) = none := by
  cases c <;> decide

theorem props_not_num (c : DptClass) : ∀ p ∈ c.props, p.kind ≠ .num → p.name ∉ Spec.numbers c := by
  cases c <;> decide

theorem props_enum (c : DptClass) : ∀ p ∈ c.props, p.kind ≠ .num → p.kind ≠ .temperatura →
    (Spec.names c).find? (fun x => x.1 == p.name) = some (p.name, p.kind.members) := by
  cases c <;> decide

/-- Assigning to a property: the code of the value is written to the place of the property, or something is raised. -/
theorem setProp_code {c : DptClass} {p : DptProp} (hp : p ∈ c.props) (v : PyVal) :
    (∀ n, Spec.valueCode c p.name v = some n → ∀ raw, Dpt.setProp p v raw = (.ok (), setField p.off p.width n raw)) ∧
      (Spec.valueCode c p.name v = none → ∃ e, ∀ raw, Dpt.setProp p v raw = (.error e, raw)) := by
  obtain ⟨-, -, -, -, ht, hnt⟩ := props_tables c p hp
  have hnn := props_not_num c p hp
  have he := props_enum c p hp
  obtain ⟨-, -, -, hext, -⟩ := props_ok c p hp
  unfold Dpt.setProp Spec.valueCode
  cases hk : p.kind with
  | temperatura =>
    rw [if_pos (ht hk)]
    obtain ⟨h1, h2⟩ := hext hk
    rcases timesTen_tenfold v with ⟨m, hs, hr⟩ | ⟨hs, e, hr⟩
    · rw [hs]
      refine ⟨fun n h raw => ?_, fun h => absurd h (Option.some_ne_none _)⟩
      rw [h1, h2, ← Option.some.inj h]
      exact setTemperatura_eq hr raw
    · rw [hs]
      refine ⟨fun n h => absurd h.symm (Option.some_ne_none _), fun _ => ⟨e, fun raw => ?_⟩⟩
      show Dpt.setTemperatura v raw = _
      unfold Dpt.setTemperatura
      simp only [Py.bind, Py.lift, hr]
  | num =>
    have h1 := props_num c p hp hk
    have h2 := props_num_names c p hp hk
    rw [if_neg (hnt (by rw [hk]; decide))]
    cases v with
    | int n =>
      simp only [if_pos h1]
      refine ⟨fun m h raw => ?_, fun h => by cases h⟩
      cases h
      rfl
    | str s =>
      simp only [h2]
      exact ⟨fun m h => (by cases h), fun _ => ⟨_, fun _ => rfl⟩⟩
    | float f => exact ⟨fun m h => (by cases h), fun _ => ⟨_, fun _ => rfl⟩⟩
  | enum ms =>
    rw [if_neg (hnt (by rw [hk]; simp))]
    cases v with
    | int n =>
      simp only [if_neg (hnn (by rw [hk]; simp))]
      exact ⟨fun m h => (by cases h), fun _ => ⟨_, fun _ => rfl⟩⟩
    | float f => exact ⟨fun m h => (by cases h), fun _ => ⟨_, fun _ => rfl⟩⟩
    | str s =>
      have h1 := he (by rw [hk]; simp) (by rw [hk]; simp)
      rw [hk] at h1
      simp only [h1, PropKind.members]
      unfold Dpt.memberCode
      cases hf : ms.find? (fun y => y.1 == s) with
      | none =>
        refine ⟨fun m h => (by cases h), fun _ => ?_⟩
        by_cases ha : s ∈ Dpt.intAttributes
        · exact ⟨.valueError, fun _ => by simp only [if_pos ha]; rfl⟩
        · exact ⟨.attributeError, fun _ => by simp only [if_neg ha]; rfl⟩
      | some y =>
        refine ⟨fun m h raw => ?_, fun h => by cases h⟩
        cases h
        rfl

theorem assign_unknown {c : DptClass} {f : String} (hf : f ∉ Spec.properties c) (hw : f ∉ Spec.wholeKeys) (v : PyVal)
    (raw : Nat) : Dpt.assign f v ⟨c, raw⟩ = (.ok (), ⟨c, raw⟩) := by
  simp only [Spec.wholeKeys, List.mem_cons, List.not_mem_nil, or_false, not_or] at hw
  unfold Dpt.assign
  rw [if_neg hw.2.2]
  unfold Dpt.setAttr
  have h1 : (⟨c, raw⟩ : Dpt).findProp f = none := by
    unfold Dpt.findProp
    rw [List.find?_eq_none]
    intro p hp hpf
    exact hf ((props_names c f).2 (List.mem_map.2 ⟨p, hp, by simpa using hpf⟩))
  rw [h1]
  simp only
  rw [if_neg (by rintro (h | ⟨h, -⟩); exacts [hw.1 h, hw.2.1 h]), if_neg hw.2.1]

theorem assign_prop {c : DptClass} {p : DptProp} (hp : p ∈ c.props) (v : PyVal) (raw : Nat) :
    Dpt.assign p.name v ⟨c, raw⟩ = Dpt.onRaw (Dpt.setProp p v) ⟨c, raw⟩ := by
  obtain ⟨-, -, hw, hfind, -⟩ := props_tables c p hp
  simp only [Spec.wholeKeys, List.mem_cons, List.not_mem_nil, or_false, not_or] at hw
  unfold Dpt.assign
  rw [if_neg hw.2.2]
  unfold Dpt.setAttr
  rw [show (⟨c, raw⟩ : Dpt).findProp p.name = some p from hfind]

/-- The loop of the factory, from any datapoint in which the properties to be assigned are zero. -/
theorem fields_fold (c : DptClass) (l : List (String × PyVal)) (hd : (l.map Prod.fst).Nodup)
    (hw : ∀ kv ∈ l, kv.1 ∉ Spec.wholeKeys) (raw : Nat)
    (hz : ∀ p ∈ c.props, p.name ∈ l.map Prod.fst → getField p.off p.width raw = 0) :
    (∀ ns, l.mapM (Spec.part c) = some ns →
        Py.forEach l (fun kv => Dpt.assign kv.1 kv.2) ⟨c, raw⟩ = (.ok (), ⟨c, raw + ns.sum⟩)) ∧
      (l.mapM (Spec.part c) = none →
        ∃ e d, Py.forEach l (fun kv => Dpt.assign kv.1 kv.2) ⟨c, raw⟩ = (.error e, d)) := by
  induction l generalizing raw with
  | nil =>
    refine ⟨fun ns h => ?_, fun h => by simp at h⟩
    simp only [List.mapM_nil] at h
    cases h
    rfl
  | cons kv l ih =>
    rw [List.map_cons, List.nodup_cons] at hd
    have hw' : ∀ kv ∈ l, kv.1 ∉ Spec.wholeKeys := fun x hx => hw x (by simp [hx])
    rw [List.mapM_cons]
    unfold Py.forEach
    by_cases hp : kv.1 ∈ Spec.properties c
    · obtain ⟨p, hpc, hpn⟩ := List.mem_map.1 ((props_names c kv.1).1 hp)
      obtain ⟨hpl, -⟩ := props_tables c p hpc
      obtain ⟨hok, herr⟩ := setProp_code hpc kv.2
      rw [hpn] at hok herr hpl
      have ha : Dpt.assign kv.1 kv.2 ⟨c, raw⟩ = Dpt.onRaw (Dpt.setProp p kv.2) ⟨c, raw⟩ := by
        rw [← hpn]
        exact assign_prop hpc kv.2 raw
      simp only [Spec.part, if_pos hp, hpl, Py.bind, ha]
      cases hc : Spec.valueCode c kv.1 kv.2 with
      | none =>
        obtain ⟨e, he⟩ := herr hc
        refine ⟨fun ns h => by simp at h, fun _ => ⟨e, ⟨c, raw⟩, ?_⟩⟩
        simp only [Dpt.onRaw, he]
      | some n =>
        have hraw : setField p.off p.width n raw = raw + (n % 2 ^ p.width).toNat * 2 ^ p.off :=
          setField_free (hz p hpc (by rw [hpn]; simp)) n
        have hz' : ∀ q ∈ c.props, q.name ∈ l.map Prod.fst →
            getField q.off q.width (setField p.off p.width n raw) = 0 := by
          intro q hq hql
          have hne : q.name ≠ p.name := fun h => hd.1 (by rw [← hpn, ← h]; exact hql)
          rw [getField_setField_disjoint ((props_ok c p hpc).2.2.2.2 q hq hne)]
          exact hz q hq (by rw [List.map_cons]; exact List.mem_cons_of_mem _ hql)
        obtain ⟨h1, h2⟩ := ih hd.2 hw' _ hz'
        simp only [Dpt.onRaw, hok n hc, Option.map_some]
        refine ⟨fun ns h => ?_, fun h => ?_⟩
        · cases hm : l.mapM (Spec.part c) with
          | none => simp [hm] at h
          | some ms =>
            simp only [hm, Option.bind_eq_bind, Option.bind_some, Option.pure_def, Option.some.injEq] at h
            subst h
            rw [h1 ms hm, List.sum_cons, hraw, Nat.add_assoc]
        · apply h2
          cases hm : l.mapM (Spec.part c) with
          | none => rfl
          | some ms => simp [hm] at h
    · have ha := assign_unknown hp (hw kv (by simp)) kv.2 raw
      obtain ⟨h1, h2⟩ := ih hd.2 hw' raw
        fun q hq hql => hz q hq (by rw [List.map_cons]; exact List.mem_cons_of_mem _ hql)
      simp only [Spec.part, if_neg hp, Py.bind, ha]
      refine ⟨fun ns h => ?_, fun h => ?_⟩
      · cases hm : l.mapM (Spec.part c) with
        | none => simp [hm] at h
        | some ms =>
          simp only [hm, Option.bind_eq_bind, Option.bind_some, Option.pure_def, Option.some.injEq] at h
          subst h
          rw [h1 ms hm, List.sum_cons, Nat.zero_add]
      · apply h2
        cases hm : l.mapM (Spec.part c) with
        | none => rfl
        | some ms => simp [hm] at h

/-- C84: the factory given a dictionary of fields makes the datapoint that holds the sum of what the fields amount to, and
raises exactly if one of the values is none for its property. -/
theorem c84_factory_partial (c : DptClass) (l : List (String × PyVal)) (hd : (l.map Prod.fst).Nodup)
    (hw : ∀ kv ∈ l, kv.1 ∉ Spec.wholeKeys) :
    (∀ ns, l.mapM (Spec.part c) = some ns → Dpt.make (Spec.typeName c) l = .ok ⟨c, ns.sum⟩) ∧
      (l.mapM (Spec.part c) = none → ∃ e, Dpt.make (Spec.typeName c) l = .error e) := by
  obtain ⟨h1, h2⟩ := fields_fold c l hd hw 0 (fun p _ _ => by simp [getField])
  rw [← name_type, make_name]
  unfold Dpt.new
  refine ⟨fun ns h => ?_, fun h => ?_⟩
  · rw [h1 ns h, Nat.zero_add]
  · obtain ⟨e, d, h⟩ := h2 h
    exact ⟨e, by rw [h]⟩

example : Dpt.make "DPTSetupClima" [("setpoint", .int 300), ("stagione", .str "estate"), ("colour", .str "red"),
    ("funzionamento", .str "manuale")] = .ok ⟨.setupClima, [44 * 2 ^ 8, 2 ^ 29, 0, 6 * 2 ^ 24].sum⟩ :=
  (c84_factory_partial .setupClima [("setpoint", .int 300), ("stagione", .str "estate"), ("colour", .str "red"),
    ("funzionamento", .str "manuale")] (by decide) (by decide)).1 [44 * 2 ^ 8, 2 ^ 29, 0, 6 * 2 ^ 24] (by decide)

theorem mapM_perm {α β : Type} (f : α → Option β) {l l' : List α} (h : l.Perm l') :
    (l.mapM f = none ∧ l'.mapM f = none) ∨ ∃ ns ns', l.mapM f = some ns ∧ l'.mapM f = some ns' ∧ ns.Perm ns' := by
  induction h with
  | nil => exact Or.inr ⟨[], [], rfl, rfl, .nil⟩
  | cons x h ih =>
    simp only [List.mapM_cons]
    cases f x with
    | none => exact Or.inl ⟨rfl, rfl⟩
    | some y =>
      rcases ih with ⟨h1, h2⟩ | ⟨ns, ns', h1, h2, h3⟩
      · exact Or.inl ⟨by simp [h1], by simp [h2]⟩
      · exact Or.inr ⟨y :: ns, y :: ns', by simp [h1], by simp [h2], h3.cons y⟩
  | swap x y l =>
    simp only [List.mapM_cons]
    cases f x with
    | none => cases f y <;> exact Or.inl ⟨rfl, rfl⟩
    | some a =>
      cases f y with
      | none => exact Or.inl ⟨rfl, rfl⟩
      | some b =>
        cases hl : l.mapM f with
        | none => exact Or.inl ⟨by simp, by simp⟩
        | some ns => exact Or.inr ⟨b :: a :: ns, a :: b :: ns, by simp [hl], by simp [hl], .swap a b ns⟩
  | trans h h' ih ih' =>
    rcases ih with ⟨h1, h2⟩ | ⟨ns, ns', h1, h2, h3⟩
    · rcases ih' with ⟨h4, h5⟩ | ⟨ms, ms', h4, h5, h6⟩
      · exact Or.inl ⟨h1, h5⟩
      · rw [h2] at h4
        cases h4
    · rcases ih' with ⟨h4, h5⟩ | ⟨ms, ms', h4, h5, h6⟩
      · rw [h2] at h4
        cases h4
      · rw [h2] at h4
        cases h4
        exact Or.inr ⟨ns, ms', h1, h5, h3.trans h6⟩

/-- C84: the order of the fields is without effect on the datapoint made, and on whether one is made. -/
theorem c84_order_partial (c : DptClass) (l l' : List (String × PyVal)) (h : l.Perm l') (hd : (l.map Prod.fst).Nodup)
    (hw : ∀ kv ∈ l, kv.1 ∉ Spec.wholeKeys) :
    (∃ d, Dpt.make (Spec.typeName c) l = .ok d ∧ Dpt.make (Spec.typeName c) l' = .ok d) ∨
      ∃ e e', Dpt.make (Spec.typeName c) l = .error e ∧ Dpt.make (Spec.typeName c) l' = .error e' := by
  have hd' : (l'.map Prod.fst).Nodup := (h.map Prod.fst).nodup_iff.1 hd
  have hw' : ∀ kv ∈ l', kv.1 ∉ Spec.wholeKeys := fun kv hkv => hw kv (h.mem_iff.2 hkv)
  obtain ⟨h1, h2⟩ := c84_factory_partial c l hd hw
  obtain ⟨h1', h2'⟩ := c84_factory_partial c l' hd' hw'
  rcases mapM_perm (Spec.part c) h with ⟨h3, h4⟩ | ⟨ns, ns', h3, h4, h5⟩
  · obtain ⟨e, he⟩ := h2 h3
    obtain ⟨e', he'⟩ := h2' h4
    exact Or.inr ⟨e, e', he, he'⟩
  · exact Or.inl ⟨_, h1 ns h3, by rw [h1' ns' h4, h5.sum_eq]⟩

example : ∃ d, Dpt.make "DPT_SceneControl" [("command", .str "learn"), ("number", .int 7)] = .ok d ∧
    Dpt.make "DPT_SceneControl" [("number", .int 7), ("command", .str "learn")] = .ok d := by
  rcases c84_order_partial .sceneControl [("command", .str "learn"), ("number", .int 7)] _ (.swap _ _ _) (by decide)
    (by decide) with h | ⟨e, e', h, -⟩
  · exact h
  · have h2 : Dpt.make (Spec.typeName .sceneControl) [("command", .str "learn"), ("number", .int 7)] =
        .ok ⟨.sceneControl, 135⟩ := by decide
    rw [h2] at h
    cases h

/-- C84 is false of the exception: if two values are none for their properties, the first decides what is raised. -/
theorem c84_exception_refuted : Dpt.make "DPT_SceneControl" [("command", .str "forget"), ("number", .str "7")] =
      .error .attributeError ∧
    Dpt.make "DPT_SceneControl" [("number", .str "7"), ("command", .str "forget")] = .error .typeError := by
  decide

/-- C84 is false of the key `value` beside a property, for every type with properties, whatever the property and its
value: if the property reads something else in the number given for `value`, then the later of the two wins. -/
theorem c84_value_refuted (c : DptClass) (p : String) (hp : p ∈ Spec.properties c) (v : PyVal) (code : Int)
    (hc : Spec.valueCode c p v = some code) (n : Nat) (hn : n < 2 ^ (8 * Spec.octets c))
    (hne : n / 2 ^ (Spec.fieldPlace c p).1 % 2 ^ (Spec.fieldPlace c p).2 ≠ (code % 2 ^ (Spec.fieldPlace c p).2).toNat) :
    ∃ d d', Dpt.make (Spec.typeName c) [("value", .int n), (p, v)] = .ok d ∧ Dpt.make (Spec.typeName c) [(p, v), ("value", .int n)] = .ok d' ∧
      d'.raw = n ∧ d ≠ d' := by
  obtain ⟨q, hq, rfl⟩ := List.mem_map.1 ((props_names c p).1 hp)
  obtain ⟨hpl, -⟩ := props_tables c q hq
  rw [hpl] at hne
  have hval : ∀ raw, Dpt.assign "value" (.int n) ⟨c, raw⟩ = (.ok (), ⟨c, n⟩) := by
    intro raw
    have hf : (⟨c, raw⟩ : Dpt).findProp "value" = none := by
      cases c <;> rfl
    have hs : c.size = Spec.octets c := by cases c <;> rfl
    unfold Dpt.assign
    rw [if_neg (by decide)]
    unfold Dpt.setAttr
    rw [hf]
    simp only [true_or, if_true, Dpt.setValue, hs, trunc_of_lt hn]
  have hok := (setProp_code hq v).1 code hc
  rw [← name_type, make_name, make_name]
  refine ⟨⟨c, setField q.off q.width code n⟩, ⟨c, n⟩, ?_, ?_, rfl, ?_⟩
  · simp [Py.forEach, Py.bind, Dpt.new, hval, assign_prop hq, Dpt.onRaw, hok, Py.pure]
  · simp [Py.forEach, Py.bind, Dpt.new, hval, assign_prop hq, Dpt.onRaw, hok, Py.pure]
  · intro h
    simp only [Dpt.mk.injEq, true_and] at h
    apply hne
    have h2 := getField_setField_same q.off q.width code n
    rw [h] at h2
    unfold getField at h2
    rw [h2]
    unfold trunc
    push_cast
    rfl

example : ∃ d d', Dpt.make "DPT_Control_Dimming" [("value", .int 15), ("step", .int 3)] = .ok d ∧
    Dpt.make "DPT_Control_Dimming" [("step", .int 3), ("value", .int 15)] = .ok d' ∧ d'.raw = 15 ∧ d ≠ d' :=
  c84_value_refuted .controlDimming "step" (by decide) (.int 3) 3 (by decide) 15 (by decide) (by decide)

theorem getProp_error {p : DptProp} {raw : Nat} {e : Err} (h : Dpt.getProp p raw = .error e) : e = .valueError := by
  unfold Dpt.getProp at h
  cases hk : p.kind with
  | num => simp [hk] at h
  | temperatura => simp [hk] at h
  | enum ms =>
    simp only [hk] at h
    unfold Dpt.memberName at h
    cases hf : ms.find? (fun q => q.2 == getField p.off p.width raw) with
    | none =>
      rw [hf] at h
      cases h
      rfl
    | some y =>
      rw [hf] at h
      cases h

theorem describeProps_perm {raw : Nat} {ps qs : List DptProp} (h : ps.Perm qs) :
    (Dpt.describeProps raw ps = .error .valueError ∧ Dpt.describeProps raw qs = .error .valueError) ∨
      ∃ kvs kvs', Dpt.describeProps raw ps = .ok kvs ∧ Dpt.describeProps raw qs = .ok kvs' ∧ kvs.Perm kvs' := by
  induction h with
  | nil => exact Or.inr ⟨[], [], rfl, rfl, .nil⟩
  | cons p h ih =>
    simp only [Dpt.describeProps]
    cases hg : Dpt.getProp p raw with
    | error e =>
      cases getProp_error hg
      exact Or.inl ⟨rfl, rfl⟩
    | ok v =>
      rcases ih with ⟨h1, h2⟩ | ⟨ns, ns', h1, h2, h3⟩
      · exact Or.inl ⟨by simp only [h1], by simp only [h2]⟩
      · exact Or.inr ⟨(p.name, v) :: ns, (p.name, v) :: ns', by simp only [h1], by simp only [h2], h3.cons _⟩
  | swap p q l =>
    simp only [Dpt.describeProps]
    cases hp : Dpt.getProp p raw with
    | error e =>
      cases getProp_error hp
      cases hq : Dpt.getProp q raw with
      | error e' =>
        cases getProp_error hq
        exact Or.inl ⟨rfl, rfl⟩
      | ok w => exact Or.inl ⟨rfl, rfl⟩
    | ok v =>
      cases hq : Dpt.getProp q raw with
      | error e' =>
        cases getProp_error hq
        exact Or.inl ⟨rfl, rfl⟩
      | ok w =>
        cases hl : Dpt.describeProps raw l with
        | error e =>
          have : e = .valueError := by
            clear hp hq
            induction l generalizing e with
            | nil => cases hl
            | cons x l ih =>
              simp only [Dpt.describeProps] at hl
              cases hx : Dpt.getProp x raw with
              | error e' =>
                cases getProp_error hx
                simp only [hx] at hl
                cases hl
                rfl
              | ok v =>
                simp only [hx] at hl
                cases hy : Dpt.describeProps raw l with
                | error e' =>
                  simp only [hy] at hl
                  cases hl
                  exact ih e hy
                | ok kvs =>
                  simp only [hy] at hl
                  cases hl
          subst this
          exact Or.inl ⟨rfl, rfl⟩
        | ok kvs => exact Or.inr ⟨_, _, rfl, rfl, .swap _ _ _⟩
  | trans h h' ih ih' =>
    rcases ih with ⟨h1, h2⟩ | ⟨ns, ns', h1, h2, h3⟩
    · rcases ih' with ⟨h4, h5⟩ | ⟨ms, ms', h4, h5, h6⟩
      · exact Or.inl ⟨h1, h5⟩
      · rw [h2] at h4
        cases h4
    · rcases ih' with ⟨h4, h5⟩ | ⟨ms, ms', h4, h5, h6⟩
      · rw [h2] at h4
        cases h4
      · rw [h2] at h4
        cases h4
        exact Or.inr ⟨ns, ms', h1, h5, h3.trans h6⟩

/-- C84: in whatever order python runs through the properties, a description raises the same exception or has the same
name and the same items. -/
theorem c84_describe (d : Dpt) (order : List DptProp) (h : order.Perm d.cls.props) :
    (d.describe = .error .valueError ∧ d.describeIn order = .error .valueError) ∨
      ∃ kvs kvs', d.describe = .ok (d.cls.name, kvs) ∧ d.describeIn order = .ok (d.cls.name, kvs') ∧ kvs'.Perm kvs ∧
        (kvs.map Prod.fst).Nodup := by
  have hnames : ∀ c : DptClass, (c.props.map DptProp.name ++ ["decoded_value"]).Nodup := by
    intro c
    cases c <;> decide
  have hn := hnames d.cls
  have hempty : order = [] ↔ d.cls.props = [] := by
    constructor
    · rintro rfl
      exact h.nil_eq.symm
    · intro he
      rw [he] at h
      exact h.eq_nil
  unfold Dpt.describe Dpt.describeIn
  rcases describeProps_perm (raw := d.raw) h with ⟨h1, h2⟩ | ⟨ns, ns', h1, h2, h3⟩
  · exact Or.inl ⟨by simp only [h2], by simp only [h1]⟩
  · right
    simp only [h1, h2]
    have hk := (describeProps_ok h2).1
    have hk1 : (ns'.map Prod.fst).Nodup := by
      rw [hk]
      exact (List.nodup_append.1 hn).1
    have hk2 : ∀ v : PyVal, ((ns' ++ [("decoded_value", v)]).map Prod.fst).Nodup := by
      intro v
      rw [List.map_append, hk]
      exact hn
    cases d.cls.kind with
    | float16 => exact ⟨_, _, rfl, rfl, h3.append_right _, hk2 _⟩
    | float32 => exact ⟨_, _, rfl, rfl, h3.append_right _, hk2 _⟩
    | bits =>
      refine ⟨_, _, rfl, rfl, ?_, ?_⟩
      · by_cases he : order = []
        · rw [if_pos he, if_pos (hempty.1 he)]
        · rw [if_neg he, if_neg (fun h => he (hempty.2 h))]
          exact h3
      · split
        · simp
        · exact hk1

example : ∃ kvs', (⟨.infoClimaReport, 0xA1B2C3D4⟩ : Dpt).describeIn DptClass.infoClimaReport.props.reverse =
    .ok ("DPTInfoClimaReport", kvs') ∧ ("setpoint", PyVal.int 178) ∈ kvs' := by
  have h0 : (⟨.infoClimaReport, 0xA1B2C3D4⟩ : Dpt).describe = .ok ("DPTInfoClimaReport",
      [("funzionamento", .str "forced_off"), ("stagione", .str "estate"), ("setpoint", .int 178),
        ("temperatura", .float (Dpt.getTemperatura 0xA1B2C3D4))]) := rfl
  rcases c84_describe ⟨.infoClimaReport, 0xA1B2C3D4⟩ _ (List.reverse_perm _) with ⟨h, -⟩ | ⟨kvs, kvs', h1, h2, h3, -⟩
  · rw [h0] at h
    cases h
  · refine ⟨kvs', h2, ?_⟩
    rw [h0] at h1
    cases h1
    rw [h3.mem_iff]
    simp

/-- C84: so every description, made in whatever order, gives the datapoint back with the same description (but for the
float 0xF800). -/
theorem c84_rebuild_partial (d : Dpt) (hw : d.Wf) (hx : Spec.isFloat16 d.cls = true → d.raw ≠ 0xF800)
    (order : List DptProp) (h : order.Perm d.cls.props) (name : String) (kvs : List (String × PyVal))
    (hk : d.describeIn order = .ok (name, kvs)) :
    ∃ d', Dpt.make name kvs = .ok d' ∧ d'.describe = d.describe := by
  rcases c84_describe d order h with ⟨-, h2⟩ | ⟨ks, ks', h1, h2, h3, -⟩
  · rw [h2] at hk
    cases hk
  · rw [h2] at hk
    cases hk
    obtain ⟨d', hd, -, hd', -⟩ := c17_rebuild_partial d hw hx _ ks h1 kvs h3
    exact ⟨d', hd, by rw [hd', h1]⟩

example : ∃ d', Dpt.make "DPT_SceneControl" [("number", .int 5), ("command", .str "learn")] = .ok d' ∧
    d'.describe = (⟨.sceneControl, 0xC5⟩ : Dpt).describe :=
  c84_rebuild_partial ⟨.sceneControl, 0xC5⟩ (by unfold Dpt.Wf; decide) (by decide) DptClass.sceneControl.props.reverse
    (List.reverse_perm _) _ _ rfl

end Knx
