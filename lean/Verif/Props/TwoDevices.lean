import Verif.Props.Encoding
import Verif.Spec.Network

/-! # C55: from one device to another -/

namespace Knx
open Spec

/-- A telegram as it arrives elsewhere. -/
def arrived (c1 c2 : Byte) (src : BitVec 16) (t : Telegram) : Telegram :=
  { t with ctrl1 := c1, ctrl2 := t.ctrl2 &&& 0x80 ||| c2 &&& 0x7F, source := src }

theorem arrival_cemi (info : Msg) (c1 c2 : Byte) (src : BitVec 16) (t : Telegram) :
    arrival info c1 c2 src (cemi 0x11 [] t) = cemi (codeOf .ind) info (arrived c1 c2 src t) := by
  unfold cemi
  rw [octets_eq, octets_eq]
  simp [arrival, arrived, octetsOf_two, codeOf]

theorem arrived_isGroup {c1 c2 : Byte} {src : BitVec 16} {t : Telegram} :
    (arrived c1 c2 src t).IsGroup ↔ t.IsGroup := by
  unfold Telegram.IsGroup arrived
  have key : ∀ x y : BitVec 8, (128 ≤ (x &&& 0x80 ||| y &&& 0x7F).toNat) ↔ 128 ≤ x.toNat := by
    intro x y
    have e : ∀ z : BitVec 8, 128 ≤ z.toNat ↔ z.getLsbD 7 = true := by decide
    rw [e, e]
    simp
  exact key _ _

theorem arrived_facts (c1 c2 : Byte) (src : BitVec 16) (t : Telegram) :
    ((arrived c1 c2 src t).IsData ↔ t.IsData) ∧ (arrived c1 c2 src t).destination = t.destination ∧
      (arrived c1 c2 src t).service = t.service ∧ (arrived c1 c2 src t).value = t.value := ⟨Iff.rfl, rfl, rfl, rfl⟩

/-- C55 for writes: whatever device A encodes as a group value write, put in the envelope of its medium, arrives at a device
B with other tables, another medium, other counters, as exactly B's write indications for the ASAPs B has on that address,
with the number written; the additional information, the control octets and the source seen by B play no role. The
address must not be 0 and the first of the datapoints must be one that can be displayed (cf. `c31_refuted`). -/
theorem c55_write {sA sB : State} {aA aB : AssocTable} {gA gB : GroupObjectTable} (haA : sA.assoc = some aA)
    (hgA : sA.got = some gA) (haB : sB.assoc = some aB) (hgB : sB.got = some gB) {asap : Asap} {d : Dpt} {f : Msg}
    (h : (encodeMsg (.groupWriteReq asap d) sA).1 = .ok f) {x : BitVec 16} {as : List (BitVec 16)}
    (hs : aA.sendAddresses asap = .ok (x :: as)) (h0 : x ≠ 0) (hx : x ∈ aB.at_.gas.map Addr.fs) {vs : List Int}
    (hr : aB.Routes ⟨0, x⟩ vs) (hv : vs ≠ []) :
    ∃ c m, typeIn gA asap.value = some c ∧ envelope sA m = some f ∧
      ∀ info c1 c2 src f' pre, info.length < 256 → Carries sB (arrival info c1 c2 src m) f' pre →
        FirstDisplayable (fanOut .write .ind gB vs (writtenValue c d.raw)) →
        (decodeMsg f' sB).1 = .ok (.list (pre ++ fanOut .write .ind gB vs (writtenValue c d.raw))) := by
  obtain ⟨a', g', c, as', e1, e2, e3, e4, e5⟩ := write_frame h
  rw [haA] at e1
  cases e1
  rw [hgA] at e2
  cases e2
  rw [hs] at e4
  cases e4
  refine ⟨c, _, e3, e5 x rfl, fun info c1 c2 src f' pre hi hc hf => ?_⟩
  obtain ⟨f1, f2, f3, f4, f5, f6, -⟩ := writeTelegram_facts x c d.raw
  rw [arrival_cemi] at hc
  obtain ⟨g1, g2, g3, g4⟩ := arrived_facts c1 c2 src (writeTelegram x c d.raw)
  have := c29_fanout_partial (s := sB) (t := arrived c1 c2 src (writeTelegram x c d.raw)) (k := .ind) (info := info)
    (f := f') (pre := pre) haB hgB (arrived_isGroup.2 f1) (g1.2 f2) (by rw [g2, f3]; exact h0)
    (by rw [g2, f3]; exact hx) (by rw [g2, f3]; exact hr) hv hi hc (g3.trans f4)
  rw [g4, f5] at this
  exact (this hf).1

/-- Another device: the address 0x0E89 of device A with two ASAPs, on KNXnet/IP. -/
def exOpsB : List AssocTable.Op :=
  [.associate ⟨41, none⟩ [⟨50, 0x0777⟩, ⟨51, 0x0E89⟩], .associate ⟨42, none⟩ [⟨52, 0x0E89⟩]]

def exStateB : State :=
  { State.initIp .knxnetIp (some ((AssocTable.init exAt []).2.afterAll exOpsB))
      (some [(⟨42, none⟩, .float16), (⟨41, none⟩, .brightness)]) with seqRemote := 255 }

example : (decodeMsg (tunnelRequest 9 255 (arrival [1, 2, 3] 0xBC 0x50 0x1105
    (cemi 0x11 [] (writeTelegram 0x0E89 .float16 0x0C3D)))) exStateB).1 =
    .ok (.list [.tunnelingReq 255 .noError, .group .write .ind ⟨42, none⟩ ⟨.float16, 0x0C3D⟩,
      .group .write .ind ⟨41, none⟩ ⟨.brightness, 0x3D⟩]) := by
  obtain ⟨c, m, hc, hm, h⟩ := c55_write (sA := exState .usbHid) (sB := exStateB) (asap := ⟨7, none⟩)
    (d := ⟨.float16, 0x0C3D⟩) (f := usbReport (cemi 0x11 [] (writeTelegram 0x0E89 .float16 0x0C3D))) rfl rfl rfl rfl
    (by decide) (x := 0x0E89) (as := [1]) (by decide) (by decide) (by decide) (vs := [41, 42])
    (c08_exclusive_partial exAt exOpsB (by decide) (by decide) (by decide) _) (by decide)
  have : c = .float16 := Option.some.inj (hc.symm.trans (by decide))
  subst this
  have : m = cemi 0x11 [] (writeTelegram 0x0E89 .float16 0x0C3D) := by
    have := congrArg (List.drop 11) (Option.some.inj hm)
    simpa [usbReport, octetsOf] using this
  subst this
  exact h [1, 2, 3] 0xBC 0x50 0x1105 _ _ (by decide) (.ip 9 255 rfl (by decide)) (by decide)

/-- C55 for reads: without any condition on the datapoints. -/
theorem c55_read {sA sB : State} {aA aB : AssocTable} {gB : GroupObjectTable} (haA : sA.assoc = some aA)
    (haB : sB.assoc = some aB) (hgB : sB.got = some gB) {asap : Asap} {f : Msg}
    (h : (encodeMsg (.groupRead asap) sA).1 = .ok f) {x : BitVec 16} {as : List (BitVec 16)}
    (hs : aA.sendAddresses asap = .ok (x :: as)) (h0 : x ≠ 0) (hx : x ∈ aB.at_.gas.map Addr.fs) {vs : List Int}
    (hr : aB.Routes ⟨0, x⟩ vs) (hv : vs ≠ []) :
    ∃ m, envelope sA m = some f ∧
      ∀ info c1 c2 src f' pre, info.length < 256 → Carries sB (arrival info c1 c2 src m) f' pre →
        (decodeMsg f' sB).1 = .ok (.list (pre ++ fanOut .read .ind gB vs 0)) := by
  obtain ⟨a', as', e1, e4, e5⟩ := read_frame h
  rw [haA] at e1
  cases e1
  rw [hs] at e4
  cases e4
  refine ⟨_, e5 x rfl, fun info c1 c2 src f' pre hi hc => ?_⟩
  obtain ⟨f1, f2, f3, f4, f5⟩ := readTelegram_facts x
  rw [arrival_cemi] at hc
  obtain ⟨g1, g2, g3, g4⟩ := arrived_facts c1 c2 src (readTelegram x)
  have hf : FirstDisplayable (fanOut .read .ind gB vs 0) := by
    unfold fanOut
    cases gB.filter fun p => p.1.value ∈ vs with
    | nil => exact trivial
    | cons p l =>
      show Displayable _
      unfold Displayable
      simp
  have := c29_fanout_partial (s := sB) (t := arrived c1 c2 src (readTelegram x)) (k := .ind) (info := info)
    (f := f') (pre := pre) haB hgB (arrived_isGroup.2 f1) (g1.2 f2) (by rw [g2, f3]; exact h0)
    (by rw [g2, f3]; exact hx) (by rw [g2, f3]; exact hr) hv hi hc (g3.trans f4)
  rw [g4, f5] at this
  exact (this hf).1

example : ∃ m, envelope (exState .usbHid) m = some (usbReport (cemi 0x11 [] (readTelegram 0x0E89))) ∧
    ∀ info c1 c2 src f' pre, info.length < 256 → Carries exStateB (arrival info c1 c2 src m) f' pre →
      (decodeMsg f' exStateB).1 = .ok (.list (pre ++ [.group .read .ind ⟨42, none⟩ ⟨.float16, 0⟩,
        .group .read .ind ⟨41, none⟩ ⟨.brightness, 0⟩])) :=
  c55_read (sA := exState .usbHid) (sB := exStateB) (asap := ⟨7, none⟩) rfl rfl rfl
    (by decide) (x := 0x0E89) (as := [1]) (by decide) (by decide) (by decide) (vs := [41, 42])
    (c08_exclusive_partial exAt exOpsB (by decide) (by decide) (by decide) _) (by decide)

/-- C55: a device that does not have the address sees nothing, whatever it has registered. -/
theorem c55_elsewhere {sA sB : State} {aA aB : AssocTable} (haA : sA.assoc = some aA) (haB : sB.assoc = some aB)
    {asap : Asap} {d : Dpt} {f : Msg} (h : (encodeMsg (.groupWriteReq asap d) sA).1 = .ok f) {x : BitVec 16}
    {as : List (BitVec 16)} (hs : aA.sendAddresses asap = .ok (x :: as)) (hx : x ∉ aB.at_.gas.map Addr.fs) :
    ∃ m, envelope sA m = some f ∧
      ∀ info c1 c2 src f' pre, info.length < 256 → Carries sB (arrival info c1 c2 src m) f' pre →
        (decodeMsg f' sB).1 = .ok (.list pre) := by
  obtain ⟨a', g', c, as', e1, e2, e3, e4, e5⟩ := write_frame h
  rw [haA] at e1
  cases e1
  rw [hs] at e4
  cases e4
  refine ⟨_, e5 x rfl, fun info c1 c2 src f' pre hi hc => ?_⟩
  obtain ⟨f1, f2, f3, f4, f5, f6, -⟩ := writeTelegram_facts x c d.raw
  rw [arrival_cemi] at hc
  obtain ⟨g1, g2, g3, g4⟩ := arrived_facts c1 c2 src (writeTelegram x c d.raw)
  exact c30_foreign (k := .ind) haB (arrived_isGroup.2 f1) (.inl (g1.2 f2)) (by rw [g2, f3]; exact hx) hi hc

example : ∃ m, envelope (exState .usbHid) m = some (usbReport (cemi 0x11 [] (writeTelegram 0x0E89 .float16 0x0C3D))) ∧
    ∀ info c1 c2 src f' pre, info.length < 256 →
      Carries (State.init .usbHid (some (AssocTable.init exAt []).2) none) (arrival info c1 c2 src m) f' pre →
      (decodeMsg f' (State.init .usbHid (some (AssocTable.init exAt []).2) none)).1 = .ok (.list pre) :=
  c55_elsewhere (sA := exState .usbHid) (asap := ⟨7, none⟩) (d := ⟨.float16, 0x0C3D⟩) rfl rfl (by decide)
    (x := 0x0E89) (as := [1]) (by decide) (by decide)

/-- C55: where both sides have registered the same type, the received datapoint is described exactly as the sent one, even
if its value travelled in six bits. -/
theorem c55_description (c : DptClass) (n : Nat) (hn : n < 256 ^ octets c) :
    (Dpt.mk c (writtenValue c n % 256 ^ octets c)).describe = (Dpt.mk c n).describe := by
  by_cases hc : inApci c = true
  · unfold writtenValue
    rw [if_pos hc]
    have hb : getField 0 1 ((0x80 + n % 64) % 256 ^ octets c) = getField 0 1 n := by
      have : octets c = 1 := by cases c <;> first | rfl | exact absurd hc (by decide)
      rw [this]
      unfold getField
      omega
    cases c <;> first
      | exact absurd hc (by decide)
      | (unfold Dpt.describe
         simp only [DptClass.props, Dpt.describeProps, Dpt.getProp, hb, DptClass.name, DptClass.kind, reduceCtorEq, if_false])
  · unfold writtenValue
    rw [if_neg hc, Nat.mod_mod, Nat.mod_eq_of_lt hn]

example : writtenValue .switch 1 % 256 = 0x81 ∧ (Dpt.mk .switch 0x81).describe = (Dpt.mk .switch 1).describe :=
  ⟨rfl, c55_description .switch 1 (by decide)⟩

end Knx
