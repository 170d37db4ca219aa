import Verif.Props.Exact
import Verif.Spec.ValueForm

/-! # C106: values travel in the form of the standard -/

namespace Knx
open Spec

/-- C106: a write request for an ASAP of a standardised type other than `DPT_Control_Dimming` and `DPT_Brightness` is encoded
as a telegram that carries the value in the form of the standard. -/
theorem c106_partial {s : State} {a : AssocTable} {g : GroupObjectTable} (ha : s.assoc = some a) (hg : s.got = some g)
    {asap : Asap} {c : DptClass} (hc : typeIn g asap.value = some c) {b : Nat} (hb : standardBits c = some b)
    (hd : c ≠ .controlDimming ∧ c ≠ .brightness) {x : BitVec 16} {as : List (BitVec 16)} (hs : a.sendAddresses asap = .ok (x :: as))
    {d : Dpt} (hn : d.raw < 2 ^ b) {f : Msg} (h : (encodeMsg (.groupWriteReq asap d) s).1 = .ok f) :
    ∃ t : Telegram, envelope s (cemi 0x11 [] t) = some f ∧ t.destination = x ∧ t.IsGroup ∧ t.IsData ∧
      Travels .write b d.raw t := by
  obtain ⟨a', g', c', as', e1, e2, e3, e4, e5⟩ := write_frame h
  rw [ha] at e1
  cases e1
  rw [hg] at e2
  cases e2
  rw [hc] at e3
  cases e3
  rw [hs] at e4
  cases e4
  obtain ⟨f1, f2, f3, -⟩ := writeTelegram_facts x c d.raw
  refine ⟨_, e5 x rfl, f3, f1, f2, 0x80, rfl, ?_⟩
  have key : (inApci c = true ∧ b = 1) ∨ (inApci c = false ∧ 6 < b ∧ b / 8 = octets c) := by
    revert hb hd
    cases c <;> simp +decide [standardBits] <;> rintro rfl <;> decide
  rcases key with ⟨h1, rfl⟩ | ⟨h1, h2, h3⟩
  · rw [if_pos (by decide)]
    unfold writeTelegram
    rw [h1, if_pos rfl]
    refine ⟨?_, rfl⟩
    rw [request_code (by omega)]
    omega
  · rw [if_neg (by omega)]
    unfold writeTelegram
    rw [h1, if_neg (by decide), h3]
    refine ⟨?_, rfl⟩
    rw [request_code (by omega)]

example : ∃ t : Telegram, envelope (exState .usbHid) (cemi 0x11 [] t) =
      some (usbReport (cemi 0x11 [] (writeTelegram 0x0E89 .float16 0x0C3D))) ∧ t.destination = 0x0E89 ∧ t.IsGroup ∧ t.IsData ∧
      Travels .write 16 0x0C3D t :=
  c106_partial (s := exState .usbHid) (asap := ⟨7, none⟩) (c := .float16) (d := ⟨.float16, 0x0C3D⟩) rfl rfl (by decide) rfl
    (by decide) (x := 0x0E89) (as := [1]) (by decide) (by decide) (by decide)

/-- C106 is false for every write request of an ASAP with the type `DPT_Control_Dimming` or `DPT_Brightness`: four bits are sent
in an octet of their own, and of sixteen bits only one octet, so that the telegram carries no value of the type. -/
theorem c106_refuted {s : State} {a : AssocTable} {g : GroupObjectTable} (ha : s.assoc = some a) (hg : s.got = some g)
    {asap : Asap} {c : DptClass} (hc : typeIn g asap.value = some c) (hd : c = .controlDimming ∨ c = .brightness)
    {x : BitVec 16} {as : List (BitVec 16)} (hs : a.sendAddresses asap = .ok (x :: as)) {d : Dpt} {f : Msg}
    (h : (encodeMsg (.groupWriteReq asap d) s).1 = .ok f) (t : Telegram) (ht : envelope s (cemi 0x11 [] t) = some f) :
    (∀ svc b n, standardBits c = some b → ¬ Travels svc b n t) ∧ Travels .write 8 d.raw t := by
  obtain ⟨a', g', c', as', e1, e2, e3, e4, e5⟩ := write_frame h
  rw [ha] at e1
  cases e1
  rw [hg] at e2
  cases e2
  rw [hc] at e3
  cases e3
  rw [hs] at e4
  cases e4
  have hi := envelope_inj ht (e5 x rfl)
  have ho := congrArg (List.drop 2) hi
  unfold cemi at ho
  simp only [List.append_nil, List.cons_append, List.nil_append, List.drop_succ_cons, List.drop_zero] at ho
  rw [octets_eq, octets_eq] at ho
  simp only [octetsOf_two, List.cons_append, List.nil_append, List.cons.injEq] at ho
  obtain ⟨-, -, -, -, -, -, -, h1, h2, h3⟩ := ho
  have hr : t.rest = octetsOf 1 d.raw := by rcases hd with rfl | rfl <;> exact h3
  constructor
  · rintro svc b n hb ⟨base, -, ht⟩
    rw [hr] at ht
    rcases hd with rfl | rfl <;> cases hb
    · rw [if_pos (by decide)] at ht
      exact absurd (congrArg List.length ht.2) (by simp [octetsOf_length])
    · rw [if_neg (by decide)] at ht
      exact absurd (congrArg List.length ht.2) (by simp [octetsOf_length])
  · refine ⟨0x80, rfl, ?_⟩
    rw [if_neg (by decide)]
    refine ⟨?_, hr⟩
    have hc' : t.code = (writeTelegram x c d.raw).code := by
      unfold Telegram.code
      rw [h1, h2]
    rw [hc']
    unfold writeTelegram
    rw [if_neg (by rcases hd with rfl | rfl <;> decide), request_code (by omega)]

/-- An installation with two dimmers on an address. -/
def exDimmers : State :=
  { exState .usbHid with got := some [(⟨3, none⟩, .controlDimming), (⟨7, none⟩, .controlDimming)] }

example (t : Telegram) (ht : envelope exDimmers (cemi 0x11 [] t) =
    some (usbReport (cemi 0x11 [] (writeTelegram 0x0E89 .controlDimming 0x0B)))) :
    (∀ svc b n, standardBits .controlDimming = some b → ¬ Travels svc b n t) ∧ Travels .write 8 0x0B t :=
  c106_refuted (s := exDimmers) (asap := ⟨7, none⟩) (d := ⟨.controlDimming, 0x0B⟩) rfl rfl (by decide) (.inl rfl)
    (x := 0x0E89) (as := [1]) (by decide) (by decide) t ht

/-- The service and the number the stack reads from a telegram in the form of the standard. -/
theorem travels_service {svc : Svc} {c : DptClass} {b n : Nat} {t : Telegram} (hb : standardBits c = some b)
    (hn : n < 2 ^ b) (h : Travels svc b n t) :
    t.service = some svc ∧ (b ≤ 6 → t.value = 0x40 + n ∨ t.value = 0x80 + n) ∧ (6 < b → t.value = n) := by
  obtain ⟨base, h1, h2⟩ := h
  have hbase : base = 0x40 ∨ base = 0x80 := by
    revert h1; cases svc <;> simp [serviceBits] <;> omega
  have hsvc : ∀ m < 64, t.code = base + m → t.service = some svc := by
    intro m hm e
    unfold Telegram.service
    rw [e]
    revert h1
    cases svc <;> simp only [serviceBits, reduceCtorEq, false_implies, Option.some.injEq] <;> rintro rfl
    · rw [if_neg (by omega), if_pos (by omega)]
    · rw [if_neg (by omega), if_neg (by omega), if_pos (by omega)]
  by_cases h6 : b ≤ 6
  · rw [if_pos h6] at h2
    have hn' : n < 64 := lt_of_lt_of_le hn (Nat.pow_le_pow_right (by decide) h6)
    have hv : t.value = base + n := by
      unfold Telegram.value
      rw [if_pos h2.2]
      have e := h2.1
      have := t.apci.isLt
      unfold Telegram.code at e
      omega
    refine ⟨hsvc n hn' h2.1, fun _ => ?_, fun h => by omega⟩
    rw [hv]
    omega
  · rw [if_neg h6] at h2
    have hk : 256 ^ (b / 8) = 2 ^ b ∧ 0 < b / 8 := by
      revert hb
      cases c <;> simp only [standardBits, reduceCtorEq, false_implies, Option.some.injEq] <;> rintro rfl <;>
        first | decide | omega
    refine ⟨hsvc 0 (by omega) h2.1, fun h => by omega, fun _ => ?_⟩
    unfold Telegram.value
    rw [if_neg, h2.2, number_octetsOf, hk.1, Nat.mod_eq_of_lt hn]
    rw [h2.2]
    intro e
    have := congrArg List.length e
    rw [octetsOf_length] at this
    simp at this
    omega

/-- A datapoint with the number the stack reads looks like the value itself. -/
theorem travels_value {svc : Svc} {c : DptClass} {b n : Nat} {t : Telegram} (hb : standardBits c = some b)
    (hd : c ≠ .brightness) (hn : n < 2 ^ b) (h : Travels svc b n t) :
    (Dpt.mk c (t.value % 256 ^ octets c)).describe = (Dpt.mk c n).describe ∧
      (Dpt.mk c (t.value % 256 ^ octets c)).decode = (Dpt.mk c n).decode := by
  obtain ⟨-, h2, h3⟩ := travels_service hb hn h
  by_cases h6 : b ≤ 6
  · rcases h2 h6 with hv | hv <;> rw [hv] <;> clear h h2 h3 hv <;> cases c <;>
      simp only [standardBits, reduceCtorEq, Option.some.injEq] at hb <;>
      subst hb <;> first
        | omega
        | (norm_num at hn; interval_cases n <;> exact ⟨rfl, rfl⟩)
  · have hk : 256 ^ octets c = 2 ^ b := by
      revert hb hd
      cases c <;> simp +decide only [standardBits, reduceCtorEq, false_implies, Option.some.injEq] <;> rintro rfl <;>
        first | decide | omega
    rw [h3 (by omega), hk, Nat.mod_eq_of_lt hn]
    exact ⟨rfl, rfl⟩

/-- A telegram with a value of the standard to an address of which the ASAPs have one standardised type. -/
theorem travels_deliver {s : State} {a : AssocTable} {g : GroupObjectTable} (ha : s.assoc = some a)
    (hg : s.got = some g) {t : Telegram} (htg : t.IsGroup) (htd : t.IsData) (h0 : t.destination ≠ 0)
    (hm : t.destination ∈ a.at_.gas.map Addr.fs) {vs : List Int} (hr : a.Routes ⟨0, t.destination⟩ vs) (hv : vs ≠ [])
    {k : Kind} {info f : Msg} (hi : info.length < 256) {pre : List OutMsg}
    (hc : Carries s (cemi (codeOf k) info t) f pre) {c : DptClass} (hcls : ∀ p ∈ g, p.1.value ∈ vs → p.2 = c)
    {svc : Svc} {b n : Nat} (hb : standardBits c = some b) (hn : n < 2 ^ b) (ht : Travels svc b n t) :
    (decodeMsg f s).1 = .ok (.list (pre ++
        (g.filter fun p => p.1.value ∈ vs).map fun p => .group svc (confOf k t) p.1 ⟨c, t.value % 256 ^ octets c⟩)) := by
  have hfan : fanOut svc (confOf k t) g vs t.value =
      (g.filter fun p => p.1.value ∈ vs).map fun p => .group svc (confOf k t) p.1 ⟨c, t.value % 256 ^ octets c⟩ := by
    unfold fanOut
    refine List.map_congr_left fun p hp => ?_
    obtain ⟨h1, h2⟩ := List.mem_filter.1 hp
    rw [hcls p h1 (by simpa using h2)]
  have hf : FirstDisplayable (fanOut svc (confOf k t) g vs t.value) := by
    rw [hfan]
    cases g.filter fun p => p.1.value ∈ vs with
    | nil => trivial
    | cons p l =>
      show Displayable _
      unfold Displayable
      revert hb
      cases c <;> simp [standardBits]
  rw [(c29_fanout_partial ha hg htg htd h0 hm hr hv hi hc (travels_service hb hn ht).1 hf).1, hfan]

/-- C106 for receiving, `DPT_Control_Dimming` included: a telegram that carries a value in the form of the standard to an
address of which the ASAPs have the type of the value is delivered to all of them as a datapoint that is described and decoded
like the value itself. Missing from the full claim: `DPT_Brightness`, see `c106_truncated`. -/
theorem c106_receive_partial {s : State} {a : AssocTable} {g : GroupObjectTable} (ha : s.assoc = some a)
    (hg : s.got = some g) {t : Telegram} (htg : t.IsGroup) (htd : t.IsData) (h0 : t.destination ≠ 0)
    (hm : t.destination ∈ a.at_.gas.map Addr.fs) {vs : List Int} (hr : a.Routes ⟨0, t.destination⟩ vs) (hv : vs ≠ [])
    {k : Kind} {info f : Msg} (hi : info.length < 256) {pre : List OutMsg}
    (hc : Carries s (cemi (codeOf k) info t) f pre) {c : DptClass} (hcls : ∀ p ∈ g, p.1.value ∈ vs → p.2 = c)
    (hd : c ≠ .brightness) {svc : Svc} {b n : Nat} (hb : standardBits c = some b) (hn : n < 2 ^ b) (ht : Travels svc b n t) :
    ∃ d : Dpt, d.cls = c ∧ d.describe = (Dpt.mk c n).describe ∧ d.decode = (Dpt.mk c n).decode ∧
      (decodeMsg f s).1 = .ok (.list (pre ++
        (g.filter fun p => p.1.value ∈ vs).map fun p => .group svc (confOf k t) p.1 d)) :=
  ⟨_, rfl, (travels_value hb hd hn ht).1, (travels_value hb hd hn ht).2,
    travels_deliver ha hg htg htd h0 hm hr hv hi hc hcls hb hn ht⟩

example : ∃ d : Dpt, d.cls = .controlDimming ∧
    d.describe = .ok ("DPT_Control_Dimming", [("step", .int 3), ("direction", .str "up")]) ∧
    (decodeMsg (usbReport (cemi 0x29 [] ⟨0xBC, 0xE0, 0x1105, 0x0E89, 1, 0, 0x8B, []⟩) ++ [0]) exDimmers).1 =
      .ok (.list [.group .write .ind ⟨3, none⟩ d, .group .write .ind ⟨7, none⟩ d]) := by
  obtain ⟨d, h1, h2, -, h3⟩ := c106_receive_partial (s := exDimmers)
    (t := ⟨0xBC, 0xE0, 0x1105, 0x0E89, 1, 0, 0x8B, []⟩) (k := .ind)
    (info := []) (vs := [7, 3]) (c := .controlDimming) (svc := .write) (n := 0x0B) rfl rfl (by show 128 ≤ _; decide)
    (by show _ < 4; decide) (by decide) (by decide)
    (c08_exclusive_partial exAt exOps (by decide) (by decide) (by decide) _) (by decide) (by decide)
    (.usb [0] rfl (by decide)) (by decide) (by decide) rfl (by decide) ⟨0x80, rfl, rfl, rfl⟩
  exact ⟨d, h1, h2.trans (by decide), h3⟩

/-- C106 is false for every brightness of 256 lux or more that is received: the ASAPs with the type `DPT_Brightness` get the
lower octet, which is described otherwise than the value. -/
theorem c106_truncated {s : State} {a : AssocTable} {g : GroupObjectTable} (ha : s.assoc = some a)
    (hg : s.got = some g) {t : Telegram} (htg : t.IsGroup) (htd : t.IsData) (h0 : t.destination ≠ 0)
    (hm : t.destination ∈ a.at_.gas.map Addr.fs) {vs : List Int} (hr : a.Routes ⟨0, t.destination⟩ vs) (hv : vs ≠ [])
    {k : Kind} {info f : Msg} (hi : info.length < 256) {pre : List OutMsg}
    (hc : Carries s (cemi (codeOf k) info t) f pre) (hcls : ∀ p ∈ g, p.1.value ∈ vs → p.2 = .brightness)
    {svc : Svc} {n : Nat} (hn : n < 2 ^ 16) (hn' : 256 ≤ n) (ht : Travels svc 16 n t) :
    ∃ d : Dpt, d.describe = .ok ("DPT_Brightness", [("value", .int (n % 256 : Nat))]) ∧
      d.describe ≠ .ok ("DPT_Brightness", [("value", .int n)]) ∧
      (decodeMsg f s).1 = .ok (.list (pre ++
        (g.filter fun p => p.1.value ∈ vs).map fun p => .group svc (confOf k t) p.1 d)) := by
  have hv' := (travels_service (c := .brightness) rfl hn ht).2.2 (by decide)
  have hk : t.value % 256 ^ octets .brightness = n % 256 := by rw [hv']; rfl
  have e : (Dpt.mk .brightness (t.value % 256 ^ octets .brightness)).describe =
      .ok ("DPT_Brightness", [("value", .int (n % 256 : Nat))]) := by rw [hk]; rfl
  refine ⟨_, e, ?_, travels_deliver ha hg htg htd h0 hm hr hv hi hc hcls rfl hn ht⟩
  rw [e]
  simp only [ne_eq, Except.ok.injEq, Prod.mk.injEq, List.cons.injEq, PyVal.int.injEq, and_true, true_and]
  omega

example : ∃ d : Dpt, d.describe = .ok ("DPT_Brightness", [("value", .int 0x2C)]) ∧
    d.describe ≠ .ok ("DPT_Brightness", [("value", .int 300)]) ∧
    (decodeMsg (usbReport (cemi 0x29 [] ⟨0xBC, 0xE0, 0x1105, 0x0E89, 3, 0, 0x80, [0x01, 0x2C]⟩) ++ [0])
      { exDimmers with got := some [(⟨7, none⟩, .brightness)] }).1 = .ok (.list [.group .write .ind ⟨7, none⟩ d]) :=
  c106_truncated (s := { exDimmers with got := some [(⟨7, none⟩, .brightness)] })
    (t := ⟨0xBC, 0xE0, 0x1105, 0x0E89, 3, 0, 0x80, [0x01, 0x2C]⟩) (k := .ind)
    (info := []) (vs := [7, 3]) (svc := .write) (n := 300) rfl rfl (by show 128 ≤ _; decide)
    (by show _ < 4; decide) (by decide) (by decide)
    (c08_exclusive_partial exAt exOps (by decide) (by decide) (by decide) _) (by decide) (by decide)
    (.usb [0] rfl (by decide)) (by decide) (by decide) (by decide) ⟨0x80, rfl, rfl, rfl⟩

end Knx
