import Verif.Props.Encoding
import Verif.Props.PropertyServices
import Verif.Props.Responses
import Verif.Props.Client
import Verif.Props.Individual
import Verif.Props.Replies
import Verif.Props.TunnelProgram
import Verif.Props.Gateway

/-!
# Exact forms of claims that hold in part only

For every state and not only for an example: what happens where C23 to C26, C28, C46, C47, C48 and C57 fail.
-/

namespace Knx
open Spec Client

namespace Spec

/-- What decoding a group telegram to the address `x` gives, if `gas` are the group addresses, `vs` the ASAP values on `x`
and `l` the messages for them: nothing for the address 0 and for unknown addresses, an exception if there are no ASAPs or
the first message cannot be displayed. -/
def heard (gas : List (BitVec 16)) (x : BitVec 16) (vs : List Int) (pre l : List OutMsg) : Except Err Res :=
  if x = 0 ∨ x ∉ gas then .ok (.list pre)
  else if vs = [] then .error .keyError
  else if FirstDisplayable l then .ok (.list (pre ++ l))
  else .error .valueError

end Spec

theorem heard_decode {s : State} {a : AssocTable} {g : GroupObjectTable} (ha : s.assoc = some a) (hg : s.got = some g)
    {t : Telegram} (htg : t.IsGroup) (htd : t.IsData) {vs : List Int} (hr : a.Routes ⟨0, t.destination⟩ vs)
    {k : Kind} {info f : Msg} (hi : info.length < 256) {pre : List OutMsg}
    (hc : Carries s (cemi (codeOf k) info t) f pre) {svc : Svc} (hs : t.service = some svc) :
    (decodeMsg f s).1 = heard (a.at_.gas.map Addr.fs) t.destination vs pre (fanOut svc (confOf k t) g vs t.value) := by
  unfold heard
  by_cases hm : t.destination ∈ a.at_.gas.map Addr.fs
  · by_cases h0 : t.destination = 0
    · rw [if_pos (.inl h0)]
      have hl : lDataDecode k s.tables (ldataOf t) (payload t) = .ok (.list []) := by
        unfold lDataDecode
        rw [addressType_group htg]
        simp only
        rw [if_neg (show ¬ (ldataOf t).destination ≠ 0 from not_not.2 h0)]
      rw [carries_list hc ((codeOf_cemi (k := k) (info := info) t hi s).trans (by rw [hl])), List.append_nil]
    · rw [if_neg (by simp only [not_or, not_not]; exact ⟨h0, hm⟩)]
      by_cases hv : vs = []
      · subst hv
        rw [if_pos rfl, c31_unassociated ha htg htd h0 hm hr hi hc hs]
      · rw [if_neg hv]
        split_ifs with hf
        · exact (c29_fanout_partial ha hg htg htd h0 hm hr hv hi hc hs hf).1
        · exact (c31_partial ha hg htg htd h0 hm hr hv hi hc .valueError).2 ⟨rfl, svc, hs, hf⟩
  · rw [if_pos (.inr hm)]
    exact c30_foreign ha htg (.inl htd) hm hi hc

/-- C23, exactly: what the frame of an encoded indication decodes to on USB, for every first address of the ASAP and every
value. -/
theorem c23_exact {s s' : State} {a : AssocTable} {g : GroupObjectTable} (ha : s.assoc = some a) (hg : s.got = some g)
    (ha' : s'.assoc = some a) (hg' : s'.got = some g) (hm : s'.medium = .usbHid) {asap : Asap} {d : Dpt} {f : Msg}
    (h : (encodeMsg (.groupWriteInd asap d) s).1 = .ok f) {x : BitVec 16} {as : List (BitVec 16)}
    (hs : a.sendAddresses asap = .ok (x :: as)) {vs : List Int} (hr : a.Routes ⟨0, x⟩ vs) (padding : Msg) :
    ∃ c, typeIn g asap.value = some c ∧ (decodeMsg (f ++ padding) s').1 =
      heard (a.at_.gas.map Addr.fs) x vs [] (fanOut .write .ind g vs (writtenValue c d.raw)) := by
  obtain ⟨a', g', c, as', e1, e2, e3, e4, e5⟩ := indication_frame h
  rw [ha] at e1
  cases e1
  rw [hg] at e2
  cases e2
  rw [hs] at e4
  cases e4
  refine ⟨c, e3, ?_⟩
  rw [e5 x rfl]
  obtain ⟨f1, f2, f3, f4, f5, -, f7⟩ := writeTelegram_facts x c d.raw
  have := heard_decode (s := s') (t := writeTelegram x c d.raw) (k := .ind) (info := []) (vs := vs)
    (f := usbReport (cemi 0x29 [] (writeTelegram x c d.raw)) ++ padding) (pre := []) ha' hg' f1 f2 (by rw [f3]; exact hr)
    (by decide) (.usb padding hm (by rw [cemi_length]; simp only [List.length_nil]; omega)) f4
  rw [f5, f3] at this
  exact this

/-- The own individual address as first address of the ASAP 0: nothing is heard. -/
example : (decodeMsg (usbReport (cemi 0x29 [] (writeTelegram 0x1004 .brightness 7)) ++ [0])
    (State.init .usbHid (some (AssocTable.init exAt []).2) (some [(⟨0, none⟩, .brightness)]))).1 = .ok (.list []) := by
  obtain ⟨c, -, h⟩ := c23_exact (s := State.init .usbHid (some (AssocTable.init exAt []).2) (some [(⟨0, none⟩, .brightness)]))
    (s' := State.init .usbHid (some (AssocTable.init exAt []).2) (some [(⟨0, none⟩, .brightness)])) rfl rfl rfl rfl rfl
    (asap := ⟨0, none⟩) (d := ⟨.brightness, 7⟩) (f := usbReport (cemi 0x29 [] (writeTelegram 0x1004 .brightness 7)))
    (by decide) (x := 0x1004) (as := []) (by decide) (vs := [0])
    (c08_exclusive_partial exAt [] (by decide) (by decide) (by decide) _) [0]
  rw [h]
  exact if_pos (.inr (by decide))

/-- C24, exactly: what the bus confirmation of a group value write request decodes to, on both media. -/
theorem c24_exact {s s' : State} {a : AssocTable} {g : GroupObjectTable} (ha : s.assoc = some a) (hg : s.got = some g)
    (ha' : s'.assoc = some a) (hg' : s'.got = some g) {asap : Asap} {d : Dpt} {f : Msg}
    (h : (encodeMsg (.groupWriteReq asap d) s).1 = .ok f) {x : BitVec 16} {as : List (BitVec 16)}
    (hs : a.sendAddresses asap = .ok (x :: as)) {vs : List Int} (hr : a.Routes ⟨0, x⟩ vs) :
    ∃ c m, typeIn g asap.value = some c ∧ envelope s m = some f ∧
      ∀ failed f' pre, Carries s' (confirmation failed m) f' pre → (decodeMsg f' s').1 =
        heard (a.at_.gas.map Addr.fs) x vs pre (fanOut .write (.con (statusOf failed)) g vs (writtenValue c d.raw)) := by
  obtain ⟨a', g', c, as', e1, e2, e3, e4, e5⟩ := write_frame h
  rw [ha] at e1
  cases e1
  rw [hg] at e2
  cases e2
  rw [hs] at e4
  cases e4
  refine ⟨c, _, e3, e5 x rfl, fun failed f' pre hc => ?_⟩
  obtain ⟨f1, f2, f3, f4, f5, f6, -⟩ := writeTelegram_facts x c d.raw
  rw [confirmation_cemi] at hc
  have hst := confirmed_status failed _ f6
  have hco : confOf .con (confirmed failed (writeTelegram x c d.raw)) = .con (statusOf failed) := congrArg Conf.con hst
  have hval : (confirmed failed (writeTelegram x c d.raw)).value = writtenValue c d.raw := f5
  have hdst : (confirmed failed (writeTelegram x c d.raw)).destination = x := f3
  have := heard_decode (s := s') (t := confirmed failed (writeTelegram x c d.raw)) (k := .con) (info := []) (vs := vs)
    (f := f') (pre := pre) ha' hg' f1 f2 (by rw [hdst]; exact hr) (by decide) hc f4
  rw [hval, hco, hdst] at this
  exact this

/-- An undefined operating mode is sent, and its confirmation raises. -/
example : (decodeMsg (usbReport (confirmation false (cemi 0x11 [] (writeTelegram 0x0E89 .setupClima 0x0F010203))) ++ [])
    (State.init .usbHid (some ((AssocTable.init exAt []).2.afterAll [.associate ⟨7, none⟩ [⟨1, 0x0E89⟩]]))
      (some [(⟨7, none⟩, .setupClima)]))).1 = .error .valueError := by
  obtain ⟨c, m, hc, hm, h⟩ := c24_exact (asap := ⟨7, none⟩) (d := ⟨.setupClima, 0x0F010203⟩)
    (s := State.init .usbHid (some ((AssocTable.init exAt []).2.afterAll [.associate ⟨7, none⟩ [⟨1, 0x0E89⟩]]))
      (some [(⟨7, none⟩, .setupClima)]))
    (s' := State.init .usbHid (some ((AssocTable.init exAt []).2.afterAll [.associate ⟨7, none⟩ [⟨1, 0x0E89⟩]]))
      (some [(⟨7, none⟩, .setupClima)])) rfl rfl rfl rfl
    (f := usbReport (cemi 0x11 [] (writeTelegram 0x0E89 .setupClima 0x0F010203))) (by decide) (x := 0x0E89) (as := [])
    (by decide) (vs := [7]) (c08_exclusive_partial exAt _ (by decide) (by decide) (by decide) _)
  have : c = .setupClima := Option.some.inj (hc.symm.trans (by decide))
  subst this
  have : m = cemi 0x11 [] (writeTelegram 0x0E89 .setupClima 0x0F010203) := by
    have := congrArg (List.drop 11) (Option.some.inj hm)
    simpa [usbReport, octetsOf] using this
  subst this
  rw [h false _ [] (.usb [] rfl (by decide))]
  decide

/-- C25, exactly: what a group value read request decodes to when it is seen as an indication or confirmed. -/
theorem c25_exact {s s' : State} {a : AssocTable} {g : GroupObjectTable} (ha : s.assoc = some a)
    (ha' : s'.assoc = some a) (hg' : s'.got = some g) {asap : Asap} {f : Msg}
    (h : (encodeMsg (.groupRead asap) s).1 = .ok f) {x : BitVec 16} {as : List (BitVec 16)}
    (hs : a.sendAddresses asap = .ok (x :: as)) {vs : List Int} (hr : a.Routes ⟨0, x⟩ vs) :
    ∃ m, envelope s m = some f ∧
      (∀ f' pre, Carries s' (indication m) f' pre →
        (decodeMsg f' s').1 = heard (a.at_.gas.map Addr.fs) x vs pre (fanOut .read .ind g vs 0)) ∧
      ∀ failed f' pre, Carries s' (confirmation failed m) f' pre →
        (decodeMsg f' s').1 =
          heard (a.at_.gas.map Addr.fs) x vs pre (fanOut .read (.con (statusOf failed)) g vs 0) := by
  obtain ⟨a', as', e1, e4, e5⟩ := read_frame h
  rw [ha] at e1
  cases e1
  rw [hs] at e4
  cases e4
  obtain ⟨f1, f2, f3, f4, f5⟩ := readTelegram_facts x
  refine ⟨_, e5 x rfl, fun f' pre hc => ?_, fun failed f' pre hc => ?_⟩
  · rw [indication_cemi] at hc
    have := heard_decode (s := s') (t := readTelegram x) (k := .ind) (info := []) (vs := vs)
      (f := f') (pre := pre) ha' hg' f1 f2 hr (by decide) hc f4
    rw [show (readTelegram x).value = 0 from f5] at this
    exact this
  · rw [confirmation_cemi] at hc
    have hst := confirmed_status failed (readTelegram x) rfl
    have hco : confOf .con (confirmed failed (readTelegram x)) = .con (statusOf failed) := congrArg Conf.con hst
    have := heard_decode (s := s') (t := confirmed failed (readTelegram x)) (k := .con) (info := []) (vs := vs)
      (f := f') (pre := pre) ha' hg' f1 f2 hr (by decide) hc f4
    rw [hco, show (confirmed failed (readTelegram x)).value = 0 from f5] at this
    exact this

example : (decodeMsg (usbReport (indication (cemi 0x11 [] (readTelegram 0x1004))) ++ [])
    (State.init .usbHid (some (AssocTable.init exAt []).2) (some [(⟨0, none⟩, .brightness)]))).1 = .ok (.list []) := by
  obtain ⟨m, hm, h, -⟩ := c25_exact (s := State.init .usbHid (some (AssocTable.init exAt []).2) (some [(⟨0, none⟩, .brightness)]))
    (s' := State.init .usbHid (some (AssocTable.init exAt []).2) (some [(⟨0, none⟩, .brightness)])) rfl rfl rfl
    (asap := ⟨0, none⟩) (f := usbReport (cemi 0x11 [] (readTelegram 0x1004)))
    (by decide) (x := 0x1004) (as := []) (by decide) (vs := [0])
    (c08_exclusive_partial exAt [] (by decide) (by decide) (by decide) _)
  have : m = cemi 0x11 [] (readTelegram 0x1004) := by
    have := congrArg (List.drop 11) (Option.some.inj hm)
    simpa [usbReport, octetsOf] using this
  subst this
  rw [h _ [] (.usb [] rfl (by decide))]
  exact if_pos (.inr (by decide))

/-! ## C26 -/

theorem property_lost {s : State} {a : AssocTable} (ha : s.assoc = some a)
    (hin : a.at_.ind.fs ∈ a.at_.gas.map Addr.fs) (svc : Svc) (oi pid n si : Int) (data : Msg) (failed : Bool)
    {f : Msg} {pre : List OutMsg}
    (hc : Carries s (confirmation failed (cemi 0x11 []
      (propertyTelegram a.at_.ind.fs (propertyService svc) oi pid n si data))) f pre) :
    (decodeMsg f s).1 = .ok (.list pre) := by
  rw [confirmation_cemi] at hc
  obtain ⟨f1, f2, f3, -, -⟩ := propertyTelegram_facts a.at_.ind.fs (propertyService svc)
    (by cases svc <;> decide) oi pid n si data
  generalize propertyTelegram a.at_.ind.fs (propertyService svc) oi pid n si data = tt at *
  have g1 : ¬ (confirmed failed tt).IsGroup := f1
  have g2 : (confirmed failed tt).IsData := f2
  refine c58_ignored (k := .con) (info := []) ha g1 g2 (.inl ?_) (by decide) hc
  intro hm
  exact hm.2 hin

/-- C26 is false in every state in whose address table the individual address is a group address as well: no confirmation of
a property request is delivered. -/
theorem c26_lost_refuted {s s' : State} {a : AssocTable} (ha : s.assoc = some a) (ha' : s'.assoc = some a)
    (hin : a.at_.ind.fs ∈ a.at_.gas.map Addr.fs) {asap : Asap} {oi pid n si : Int} :
    (∀ {f : Msg}, (encodeMsg (.propertyRead asap oi pid n si) s).1 = .ok f →
      ∃ m, envelope s m = some f ∧ ∀ failed f' pre, Carries s' (confirmation failed m) f' pre →
        (decodeMsg f' s').1 = .ok (.list pre)) ∧
    ∀ {data : List Char} {f : Msg}, (encodeMsg (.propertyWrite asap oi pid n si data) s).1 = .ok f →
      ∃ m, envelope s m = some f ∧ ∀ failed f' pre, Carries s' (confirmation failed m) f' pre →
        (decodeMsg f' s').1 = .ok (.list pre) := by
  constructor
  · intro f h
    change (propertyReadEncode asap oi pid n si s).1 = .ok f at h
    rw [propertyRead_eq ha] at h
    exact ⟨_, finish_ok h, fun failed f' pre hc => property_lost ha' hin .read oi pid n si [] failed hc⟩
  · intro data f h
    change (propertyWriteEncode asap oi pid n si data s).1 = .ok f at h
    rw [propertyWrite_eq ha] at h
    simp only at h
    rcases hd : stringToOctets data with e | bs
    · rw [hd] at h; cases h
    · rw [hd] at h
      exact ⟨_, finish_ok h, fun failed f' pre hc => property_lost ha' hin .write oi pid n si bs failed hc⟩

theorem associateAdds_entered (as : List Addr) (t t' : AssocTable) (h : Py.forEach as AssocTable.associateAdd t = (.ok (), t'))
    {v : BitVec 16} (hv : v ∈ t.at_.gas.map Addr.fs ∨ ∃ a ∈ as, a.fs = v ∧ a.oid ≠ t.at_.ind.oid) :
    v ∈ t'.at_.gas.map Addr.fs := by
  induction as generalizing t with
  | nil =>
    cases h
    rcases hv with hv | ⟨a, ha, -⟩
    · exact hv
    · cases ha
  | cons a as ih =>
    simp only [Py.forEach, Py.bind] at h
    rcases AssocTable.associateAdd_cases a t with ⟨e, hm⟩ | ⟨hm, ho, hl, e⟩ | ⟨-, -, -, e⟩
    · rw [e] at h
      refine ih t h ?_
      rcases hv with hv | ⟨b, hb, hbv, hbo⟩
      · exact .inl hv
      · rcases List.mem_cons.1 hb with rfl | hb
        · rcases hm with hm | hm
          · exact .inl (hbv ▸ hm)
          · exact absurd hm hbo
        · exact .inr ⟨b, hb, hbv, hbo⟩
    · rw [e] at h
      refine ih _ h ?_
      have hperm := AddressTable.sort_perm (t.at_.gas ++ [a])
      have hmem : ∀ w, w ∈ t.at_.gas.map Addr.fs ∨ w = a.fs →
          w ∈ (AddressTable.sort (t.at_.gas ++ [a])).map Addr.fs := by
        intro w hw
        refine ((hperm.map Addr.fs).mem_iff).2 ?_
        simp only [List.map_append, List.mem_append, List.map_cons, List.map_nil, List.mem_singleton]
        exact hw
      rcases hv with hv | ⟨b, hb, hbv, hbo⟩
      · exact .inl (hmem v (.inl hv))
      · rcases List.mem_cons.1 hb with rfl | hb
        · exact .inl (hmem v (.inr hbv.symm))
        · exact .inr ⟨b, hb, hbv, hbo⟩
    · rw [e] at h
      cases h

/-- C26: that happens with every call of `associate` that succeeds and is given an address equal, but not identical, to the
individual address. -/
theorem c26_entered {t t' : AssocTable} {asap : Asap} {as : List Addr} (h : AssocTable.associate asap as t = (.ok (), t'))
    {x : Addr} (hx : x ∈ as) (he : x.fs = t.at_.ind.fs) (ho : x.oid ≠ t.at_.ind.oid) :
    t'.at_.ind.fs ∈ t'.at_.gas.map Addr.fs := by
  rw [AssocTable.associate_eq] at h
  rcases hf : Py.forEach as AssocTable.associateAdd t with ⟨e | u, t1⟩
  · rw [hf] at h
    cases h
  · rw [hf] at h
    have h1 := associateAdds_entered as t t1 hf (v := t.at_.ind.fs) (.inr ⟨x, hx, he, ho⟩)
    have h2 := (AssocTable.associateAdds_frame as t).2.2.1
    rw [hf] at h2
    cases h
    show t1.at_.ind.fs ∈ t1.at_.gas.map Addr.fs
    rw [show t1.at_.ind = t.at_.ind from h2]
    exact h1

/-- A property of the own device is read after the own address was associated by its value. -/
example : (decodeMsg (usbReport (confirmation false (cemi 0x11 [] (propertyTelegram 0x1004 0x3D5 0 1 1 1 []))) ++ [])
    (State.init .usbHid (some (AssocTable.associate ⟨7, none⟩ [⟨9, 0x1004⟩] (AssocTable.init exAt []).2).2) none)).1 =
    .ok (.list []) := by
  have hin := c26_entered (t := (AssocTable.init exAt []).2) (asap := ⟨7, none⟩) (as := [⟨9, 0x1004⟩])
    (t' := (AssocTable.associate ⟨7, none⟩ [⟨9, 0x1004⟩] (AssocTable.init exAt []).2).2) (by decide) (x := ⟨9, 0x1004⟩)
    (by decide) (by decide) (by decide)
  obtain ⟨m, hm, h⟩ := (c26_lost_refuted (asap := ⟨0, none⟩) (oi := 0) (pid := 1) (n := 1) (si := 1)
    (s := State.init .usbHid (some (AssocTable.associate ⟨7, none⟩ [⟨9, 0x1004⟩] (AssocTable.init exAt []).2).2) none)
    (s' := State.init .usbHid (some (AssocTable.associate ⟨7, none⟩ [⟨9, 0x1004⟩] (AssocTable.init exAt []).2).2) none)
    rfl rfl hin).1 (f := usbReport (cemi 0x11 [] (propertyTelegram 0x1004 0x3D5 0 1 1 1 []))) (by decide)
  have : m = cemi 0x11 [] (propertyTelegram 0x1004 0x3D5 0 1 1 1 []) := by
    have := congrArg (List.drop 11) (Option.some.inj hm)
    simpa [usbReport, octetsOf] using this
  subst this
  exact h false _ [] (.usb [] rfl (by decide))

/-! ## C28 -/

theorem envelope_inj {s : State} {m m' f : Msg} (h : envelope s m = some f) (h' : envelope s m' = some f) : m = m' := by
  unfold envelope at h h'
  cases hm : s.medium with
  | usbHid =>
    rw [hm] at h h'
    simp only [Option.some.injEq] at h h'
    have := congrArg (List.drop 11) (h.trans h'.symm)
    simpa [usbReport, octetsOf] using this
  | tp =>
    rw [hm] at h h'
    simp only [Option.some.injEq] at h h'
    exact h.trans h'.symm
  | knxnetIp =>
    rw [hm] at h h'
    cases hc : s.chan with
    | none => rw [hc] at h; cases h
    | some c =>
      rw [hc] at h h'
      simp only [Option.map_some, Option.some.injEq] at h h'
      have := congrArg (List.drop 10) (h.trans h'.symm)
      simpa [tunnelRequest, octetsOf] using this

/-- C28 is false for every ASAP without addresses: what is encoded for a read is the frame of no telegram at all. -/
theorem c28_read_refuted {s : State} {a : AssocTable} (ha : s.assoc = some a) {asap : Asap}
    (he : a.sendAddresses asap = .ok []) {f : Msg} (h : (encodeMsg (.groupRead asap) s).1 = .ok f) (t : Telegram) :
    envelope s (cemi 0x11 [] t) ≠ some f := by
  change (groupReadEncode asap s).1 = .ok f at h
  rw [groupRead_eq ha, he] at h
  intro h'
  have hl := congrArg List.length (envelope_inj (finish_ok h) h')
  rw [cemi_length] at hl
  simp only [List.length_cons, List.length_nil] at hl
  omega

example : envelope (State.init .usbHid (some ((AssocTable.init exAt []).2.afterAll [.associate ⟨5, none⟩ []])) none)
    (cemi 0x11 [] (readTelegram 0x0E89)) ≠ some (usbReport [0x11, 0, 0x96, 0xE0, 0, 0, 0]) :=
  c28_read_refuted rfl (asap := ⟨5, none⟩) (by decide) (by decide) _

/-- C28 for writes of four octets to such an ASAP: the frame is that of a telegram to a group address made of the service
code and the first octet of the value, with the other octets for the length and the control octets. -/
theorem c28_misdirected_refuted {s : State} {a : AssocTable} {g : GroupObjectTable} (ha : s.assoc = some a)
    (hg : s.got = some g) {asap : Asap} {c : DptClass} (hc : typeIn g asap.value = some c) (h4 : octets c = 4)
    (he : a.sendAddresses asap = .ok []) {d : Dpt} {f : Msg} (h : (encodeMsg (.groupWriteReq asap d) s).1 = .ok f) :
    envelope s (cemi 0x11 [] ⟨0x96, 0xE0, 0, BitVec.ofNat 16 (0x8000 + d.raw / 2 ^ 24 % 256), BitVec.ofNat 8 (d.raw / 2 ^ 16),
      BitVec.ofNat 8 (d.raw / 2 ^ 8), BitVec.ofNat 8 d.raw, []⟩) = some f := by
  change (groupWriteEncode .req asap d s).1 = .ok f at h
  rw [groupWrite_eq .req ha hg, hc] at h
  simp only [he] at h
  have hf := finish_ok h
  obtain ⟨x, rest, hx, h1, h2⟩ := groupWritePayload_eq c d.raw
  have hna : inApci c = false := by revert h4; cases c <;> decide
  have h3 := h2 0
  unfold writeTelegram at h3
  rw [hna, if_neg (by decide), h4] at h3
  have hr : rest = octetsOf 4 d.raw := congrArg Telegram.rest h3
  have hx' : BitVec.ofNat 8 x = 0x80 := congrArg Telegram.apci h3
  rw [h1, hx', hr, octetsOf_four] at hf
  rw [← hf]
  congr 1
  have e : octetsOf 2 (BitVec.ofNat 16 (0x8000 + d.raw / 2 ^ 24 % 256)).toNat = [0x80, BitVec.ofNat 8 (d.raw / 16777216)] := by
    rw [octetsOf_two]
    have hlt : d.raw / 2 ^ 24 % 256 < 256 := Nat.mod_lt _ (by decide)
    have hpow : (2 : Nat) ^ 24 = 16777216 := by norm_num
    rw [hpow] at hlt ⊢
    rw [BitVec.toNat_ofNat, Nat.mod_eq_of_lt (by omega)]
    refine congrArg₂ _ ?_ (congrArg₂ _ ?_ rfl) <;> (apply BitVec.eq_of_toNat_eq; simp; omega)
  unfold cemi Telegram.octets
  simp only [e]
  simp [encCode, octetsOf_two]

/-- 21.5 as a four octet float, written to an ASAP without addresses, goes to 16/0/65. -/
example : envelope (State.init .usbHid (some ((AssocTable.init exAt []).2.afterAll [.associate ⟨5, none⟩ []]))
      (some [(⟨5, none⟩, .float32)]))
    (cemi 0x11 [] ⟨0x96, 0xE0, 0, 0x8041, 0xAC, 0, 0, []⟩) =
    some (usbReport [0x11, 0, 0x96, 0xE0, 0, 0, 0x80, 0x41, 0xAC, 0, 0]) :=
  c28_misdirected_refuted (asap := ⟨5, none⟩) (c := .float32) (d := ⟨.float32, 0x41AC0000⟩) rfl rfl (by decide) (by decide)
    (by decide) (by decide)

/-! ## C46 -/

namespace Spec

/-- A cEMI frame that cannot be decoded with the tables of a state: decoding raises whenever it arrives as expected. -/
def Fails (s : State) (m : Msg) : Prop :=
  ∀ s' : State, s'.medium = .knxnetIp → s'.assoc = s.assoc → s'.got = s.got →
    ∀ f pre, Carries s' m f pre → ∃ e, (decodeMsg f s').1 = .error e

/-- What may happen while a client waits for a request with the counter `q`: requests with other counters, repetitions of
one that cannot be decoded, and other events. -/
inductive Waiting (s : State) (q : Byte) : Client.Event → Prop
  | other (l1 l2 h c q' st : Byte) (m : Msg) (hq : q' ≠ q) : Waiting s q (.datagram (tunnelDatagram l1 l2 h c q' st m))
  | failing (l1 l2 h c st : Byte) {m : Msg} (hm : Fails s m) : Waiting s q (.datagram (tunnelDatagram l1 l2 h c q st m))
  | quiet {e : Client.Event} (he : Quiet e) : Waiting s q e

end Spec

theorem fails_step {s : State} {c : Client} (h : Ready s c) (l1 l2 x chan q st : Byte) {m : Msg} (hf : Fails s m)
    (hq : c.state.seqRemote = q.toNat) :
    Ready s (Client.step c (.datagram (tunnelDatagram l1 l2 x chan q st m))) ∧
    (Client.step c (.datagram (tunnelDatagram l1 l2 x chan q st m))).decoded = c.decoded ∧
    (Client.step c (.datagram (tunnelDatagram l1 l2 x chan q st m))).wire = c.wire ∧
    (Client.step c (.datagram (tunnelDatagram l1 l2 x chan q st m))).state.seqRemote = c.state.seqRemote := by
  obtain ⟨e, he⟩ := hf { c.state with seqRemote := 0 } h.medium h.assoc h.got (tunnelRequest 0 0 m) _ (.ip 0 0 h.medium rfl)
  rw [ip_first (s := { c.state with seqRemote := 0 }) m h.medium rfl] at he
  have h3 : (msgCodeDecode m c.state).1 = (msgCodeDecode m { c.state with seqRemote := 0 }).1 := msgCode_tables m rfl
  have hx : ∃ e, (msgCodeDecode m c.state).1 = .error e := by
    rw [h3]
    generalize (msgCodeDecode m { c.state with seqRemote := 0 }).1 = y at he
    rcases y with e' | r
    · exact ⟨e', rfl⟩
    · cases he
  obtain ⟨e', hx⟩ := hx
  have hends := msgCode_ends m c.state
  have hs' : ∃ s', msgCodeDecode m c.state = (.error e', s') ∧ s'.medium = c.state.medium ∧ s'.assoc = c.state.assoc ∧
      s'.got = c.state.got ∧ s'.chan = c.state.chan ∧ s'.seqRemote = c.state.seqRemote := by
    generalize msgCodeDecode m c.state = y at hends hx
    cases hends with
    | raises e => exact ⟨_, Prod.ext hx rfl, rfl, rfl, rfl, rfl, rfl⟩
    | returns l => cases hx
    | frame k l b => exact ⟨_, Prod.ext hx rfl, rfl, rfl, rfl, rfl, rfl⟩
  obtain ⟨s', h1, h2, h4, h5, h6, h7⟩ := hs'
  have hdec : decodeMsg (tunnelDatagram l1 l2 x chan q st m) c.state = (.error e', s') := by
    unfold decodeMsg
    rw [h.medium]
    simp only
    rw [tunnel_open, if_pos hq, h1]
  show Ready s (datagramReceived _ c).2 ∧ (datagramReceived _ c).2.decoded = _ ∧ (datagramReceived _ c).2.wire = _ ∧
    (datagramReceived _ c).2.state.seqRemote = _
  rw [datagram_eq, hdec]
  exact ⟨⟨h2.trans h.medium, h4.trans h.assoc, h5.trans h.got, fun hn => h.chan (h6.symm.trans hn)⟩, rfl, rfl, h7⟩

/-- C46 is false of every frame that cannot be decoded: the client does not acknowledge it, however often it is repeated,
and as long as the connection lasts and the counter has not come round it decodes no other telegram. -/
theorem c46_stuck_refuted {c : Client} (hm : c.state.medium = .knxnetIp) (hc : c.state.chan ≠ none) {q : Byte}
    (hs : c.state.seqRemote = q.toNat) {es : List Client.Event} (h : ∀ e ∈ es, Waiting c.state q e) :
    telegrams (Client.run c es).decoded = telegrams c.decoded ∧ (Client.run c es).state.seqRemote = q.toNat := by
  have key : ∀ (s : State) (c : Client), Ready s c → c.state.seqRemote = q.toNat → (∀ e ∈ es, Waiting s q e) →
      telegrams (Client.run c es).decoded = telegrams c.decoded ∧ (Client.run c es).state.seqRemote = q.toNat := by
    clear hm hc hs h c
    induction es with
    | nil => exact fun s c _ hs _ => ⟨rfl, hs⟩
    | cons e es ih =>
      intro s c h hs hw
      have hstep : Ready s (Client.step c e) ∧ telegrams (Client.step c e).decoded = telegrams c.decoded ∧
          (Client.step c e).state.seqRemote = c.state.seqRemote := by
        cases hw e List.mem_cons_self with
        | other l1 l2 x ch q' st m hq =>
          refine again_step h l1 l2 x ch q' st m ?_
          rw [hs]
          exact fun he => hq (BitVec.eq_of_toNat_eq he.symm)
        | failing l1 l2 x ch st hf =>
          obtain ⟨h1, h2, -, h4⟩ := fails_step h l1 l2 x ch q st hf hs
          exact ⟨h1, congrArg telegrams h2, h4⟩
        | quiet he => exact quiet_step h he
      obtain ⟨h1, h2, h3⟩ := hstep
      obtain ⟨h4, h5⟩ := ih s _ h1 (h3.trans hs) fun e he => hw e (List.mem_cons_of_mem _ he)
      simp only [Client.run, List.foldl_cons] at h4 h5 ⊢
      exact ⟨h4.trans h2, h5⟩
  exact key c.state c ⟨hm, rfl, rfl, hc⟩ hs h

/-- A device opens a transport connection (0x80) while the client expects the counter 255; whatever is sent later with
other counters, e.g. the switch telegram with counter 0, is not decoded. -/
example : telegrams (Client.run exClient [.datagram (tunnelDatagram 0 18 4 0 255 0
      ([0x29, 0] ++ [] ++ controlTelegram 0xB0 0x60 0x1105 0x1004 0x80)),
    .datagram (tunnelDatagram 0 18 4 0 255 0 ([0x29, 0] ++ [] ++ controlTelegram 0xB0 0x60 0x1105 0x1004 0x80)),
    .datagram (tunnelDatagram 0 20 4 0 0 0 (cemi 0x29 [] exTelegram))]).decoded = [] := by
  have hf : Fails exClient.state ([0x29, 0] ++ [] ++ controlTelegram 0xB0 0x60 0x1105 0x1004 0x80) :=
    fun s' _ _ _ f pre hc => ⟨.indexError, by rw [c57_raises .ind (info := []) (by decide) 0xB0 0x60 0x1105 0x1004 0x80 hc]⟩
  refine (c46_stuck_refuted (c := exClient) (q := 255) rfl (by decide) (by decide) fun e he => ?_).1
  simp only [List.mem_cons, List.not_mem_nil, or_false] at he
  rcases he with rfl | rfl | rfl
  · exact .failing 0 18 4 0 0 hf
  · exact .failing 0 18 4 0 0 hf
  · exact .other 0 20 4 0 0 0 _ (by decide)

/-! ## C47 -/

namespace Spec

/-- A connect response that has all its parts: an endpoint, and connection data if there is no error. -/
def WholeResponse (d : Msg) : Prop :=
  ∃ l1 l2 chan st body, d = datagram 0x02 0x06 l1 l2 ([chan, st] ++ body) ∧
    (st = 0x00 ∧ 12 ≤ body.length ∨ st ∈ ([0x22, 0x23, 0x24] : List Byte) ∧ 8 ≤ body.length)

end Spec

theorem connect_connected {c : Client} (hm : c.state.medium = .knxnetIp) (hc : c.state.chan ≠ none) (l1 l2 : Byte)
    (body : Msg) : (Client.step c (.datagram (datagram 0x02 0x06 l1 l2 body))).connected = true ↔
      c.connected = true ∨ c.transport = true ∧ ∃ l, connectAnswer body = .ok l := by
  have hn : ∃ n, channelAfter c.state.chan (.decode (datagram 0x02 0x06 l1 l2 body)) = some n := by
    unfold channelAfter
    cases hx : c.state.chan with
    | none => exact absurd hx hc
    | some k => simp only; repeat' split
                all_goals exact ⟨_, rfl⟩
  obtain ⟨n, hn⟩ := hn
  show (datagramReceived _ c).2.connected = true ↔ _
  rw [datagram_eq, c60_connect l1 l2 body hm, hn]
  rcases ha : connectAnswer body with e | l
  · simp [answer]
  · have hx : ∃ ip port ia st, l = [.connectRes ip port ia st] := by
      unfold connectAnswer at ha
      repeat' split at ha
      all_goals first | (cases ha; exact ⟨_, _, _, _, rfl⟩) | cases ha
    obtain ⟨ip, port, ia, st, rfl⟩ := hx
    simp only [answer, handleAll, Py.forEach, Py.bind, handle, Py.modify]
    rw [encodeAndSend_eq, stateRequest_encode (n := n) rfl]
    by_cases ht : c.transport = true
    · simp [ht, Py.pure]
    · simp [ht]

theorem connectAnswer_whole (body : Msg) : (∃ l, connectAnswer body = .ok l) ↔
    ∃ chan st rest, body = [chan, st] ++ rest ∧
      (st = 0x00 ∧ 12 ≤ rest.length ∨ st ∈ ([0x22, 0x23, 0x24] : List Byte) ∧ 8 ≤ rest.length) := by
  rcases body with _ | ⟨b1, _ | ⟨b2, rest⟩⟩
  · simp [connectAnswer]
  · simp [connectAnswer]
  have hcode : ∀ st : Byte, (∃ c, connectCode st = some c) ↔ st = 0 ∨ st ∈ ([0x22, 0x23, 0x24] : List Byte) := by
    intro st
    have : ∀ st : Byte, (connectCode st).isSome = true ↔ st = 0 ∨ st ∈ ([0x22, 0x23, 0x24] : List Byte) := by decide
    rw [← this, Option.isSome_iff_exists]
  have hr : (∃ chan st r, b1 :: b2 :: rest = [chan, st] ++ r ∧
      (st = 0x00 ∧ 12 ≤ r.length ∨ st ∈ ([0x22, 0x23, 0x24] : List Byte) ∧ 8 ≤ r.length)) ↔
      (b2 = 0x00 ∧ 12 ≤ rest.length ∨ b2 ∈ ([0x22, 0x23, 0x24] : List Byte) ∧ 8 ≤ rest.length) := by
    constructor
    · rintro ⟨chan, st, r, h, h'⟩
      cases h
      exact h'
    · exact fun h => ⟨b1, b2, rest, rfl, h⟩
  rw [hr]
  rcases rest with _ | ⟨b3, _ | ⟨b4, _ | ⟨b5, _ | ⟨b6, _ | ⟨b7, _ | ⟨b8, _ | ⟨b9, _ | ⟨b10, data⟩⟩⟩⟩⟩⟩⟩⟩
  iterate 8 · simp [connectAnswer]
  unfold connectAnswer
  simp only
  by_cases h0 : b2 = 0
  · subst h0
    rw [if_pos rfl]
    rcases data with _ | ⟨d1, _ | ⟨d2, _ | ⟨d3, _ | ⟨d4, data⟩⟩⟩⟩ <;> simp
  · rw [if_neg h0]
    have := hcode b2
    rcases hx : connectCode b2 with _ | k
    · rw [hx] at this
      have h2 : ¬ b2 ∈ ([0x22, 0x23, 0x24] : List Byte) := fun h => by simpa using this.2 (.inr h)
      constructor
      · rintro ⟨l, h⟩
        cases h
      · rintro (h | h)
        · exact absurd h.1 h0
        · exact absurd h.1 h2
    · rw [hx] at this
      have h2 := (this.1 ⟨k, rfl⟩).resolve_left h0
      exact ⟨fun _ => .inr ⟨h2, by simp⟩, fun _ => ⟨_, rfl⟩⟩

/-- C47, exactly: a client with a transport becomes connected with every connect response that has all its parts, whether
the server accepts or refuses the connection, and with nothing else. -/
theorem c47_exact {c : Client} (hm : c.state.medium = .knxnetIp) (hc : c.state.chan ≠ none) (e : Client.Event) :
    (Client.step c e).connected = true ↔
      c.connected = true ∨ c.transport = true ∧ ∃ d, e = .datagram d ∧ WholeResponse d := by
  have key := fun l1 l2 body => (connect_connected hm hc l1 l2 body).trans (or_congr_right (and_congr_right fun _ =>
    connectAnswer_whole body))
  constructor
  · intro h
    rcases step_connected hm h with h1 | ⟨d, rfl, l1, l2, chan, st, body, rfl, -⟩
    · exact .inl h1
    · rcases (key l1 l2 ([chan, st] ++ body)).1 h with h1 | ⟨ht, chan', st', rest, hb, hr⟩
      · exact .inl h1
      · exact .inr ⟨ht, _, rfl, l1, l2, chan', st', rest, by rw [← hb], hr⟩
  · rintro (h | ⟨ht, d, rfl, l1, l2, chan, st, rest, rfl, hr⟩)
    · exact step_kept h e
    · exact (key l1 l2 _).2 (.inr ⟨ht, chan, st, rest, rfl, hr⟩)

/-- A refusal connects a client with a transport, and none without. -/
example : (Client.step exClient (.datagram (datagram 0x02 0x06 0 16
      ([0, 0x23] ++ [8, 1, 192, 168, 0, 2, 0x0E, 0x57])))).connected = true ∧
    (Client.step { exClient with transport := false, connected := false } (.datagram (datagram 0x02 0x06 0 16
      ([0, 0x23] ++ [8, 1, 192, 168, 0, 2, 0x0E, 0x57])))).connected = false := by
  refine ⟨(c47_exact (c := exClient) rfl (by decide) _).2 (.inr ⟨rfl, _, rfl, 0, 16, 0, 0x23, _, rfl, .inr ⟨by decide, by decide⟩⟩), ?_⟩
  rw [← Bool.not_eq_true, c47_exact (c := { exClient with transport := false, connected := false }) rfl (by decide)]
  simp

/-! ## C48 -/

/-- C48 is false of every client that has sent a request before: the connect response of a new connection leaves the counter
for its own requests where it was, so that the next request has this counter and not 0. -/
theorem c48_local_refuted {c : Client} (hm : c.state.medium = .knxnetIp) {d : Msg} {n : Nat}
    (hd : connectedTo d = some n) (hs : c.state.seqLocal % 256 ≠ 0) {m : InMsg} {x : Msg}
    (h : Sends (Client.step c (.datagram d)) m x) :
    ∃ q : Byte, q ≠ 0 ∧ (Client.run c [.datagram d, .write m]).wire =
      (Client.step c (.datagram d)).wire ++ [tunnelRequest (BitVec.ofNat 8 n) q x] := by
  obtain ⟨h1, h2⟩ := c48_partial hm hd
  have hw := (sends_step (by rw [h1]; exact hm) (by rw [h1]) h).1
  refine ⟨BitVec.ofNat 8 c.state.seqLocal, fun e => hs ?_, ?_⟩
  · have := congrArg BitVec.toNat e
    simpa using this
  · show (Client.step (Client.step c (.datagram d)) (.write m)).wire = _
    rw [hw, h1]

/-- The third request of a client would be the first of the new connection. -/
example : ∃ q : Byte, q ≠ 0 ∧ (Client.run { exClient with state := { exState .knxnetIp with seqLocal := 2 } }
    [.datagram [6, 0x10, 2, 6, 0, 20, 7, 0, 8, 1, 192, 168, 0, 2, 0x0E, 0x57, 4, 4, 0x11, 1],
      .write (.groupWriteReq ⟨7, none⟩ ⟨.float16, 0x0C3D⟩)]).wire =
    (Client.step { exClient with state := { exState .knxnetIp with seqLocal := 2 } }
      (.datagram [6, 0x10, 2, 6, 0, 20, 7, 0, 8, 1, 192, 168, 0, 2, 0x0E, 0x57, 4, 4, 0x11, 1])).wire ++
      [tunnelRequest (BitVec.ofNat 8 7) q (cemi 0x11 [] (writeTelegram 0x0E89 .float16 0x0C3D))] :=
  c48_local_refuted (n := 7) rfl (by decide) (by decide)
    ⟨by decide +kernel, by decide +kernel, by decide, 7, 2, by decide +kernel⟩

/-! ## C57 -/

/-- C57 is false of every request of this package that opens or closes a transport connection: when the bus confirms it,
decoding the confirmation raises, whatever the tables. -/
theorem c57_own_refuted {s s' : State} {f f' m : Msg} {pre : List OutMsg}
    (h : (tConnectEncode s).1 = .ok f ∨ (tDisconnectEncode s).1 = .ok f) (he : envelope s m = some f) (failed : Bool)
    (hc : Carries s' (confirmation failed m) f' pre) : decodeMsg f' s' = (.error .indexError, s') := by
  have key : ∀ x : Byte, controlFrame s x = .ok f → decodeMsg f' s' = (.error .indexError, s') := by
    intro x hx
    unfold controlFrame at hx
    rcases ha : s.assoc with _ | a <;> rw [ha] at hx
    · cases hx
    · simp only at hx
      rcases hv : envelope s (controlRequest a.at_.ind.fs x) with _ | g <;> rw [hv] at hx
      · cases hx
      · cases hx
        have hm : m = controlRequest a.at_.ind.fs x := envelope_inj he hv
        subst hm
        exact c57_raises .con (info := []) (by decide) (0x96 &&& 0xFE ||| if failed then 1 else 0) 0x60 0
          a.at_.ind.fs x hc
  rcases h with h | h
  · rw [c56_connect] at h
    exact key _ h
  · rw [c56_disconnect] at h
    exact key _ h

/-- A closing request, sent over USB and confirmed in a tunnelling request to someone else. -/
example : decodeMsg (tunnelRequest 9 255 (confirmation false (controlRequest 0x1004 0x81))) (exState .knxnetIp) =
    (.error .indexError, exState .knxnetIp) :=
  c57_own_refuted (s := exState .usbHid) (f := usbReport (controlRequest 0x1004 0x81)) (m := controlRequest 0x1004 0x81)
    (.inr (by decide)) (by decide) false (.ip 9 255 rfl (by decide))

/-! ## C49 -/

namespace Spec

/-- A message whose description in the log does not raise: a datapoint with an undefined member has none. -/
def Presentable : InMsg → Prop
  | .groupWriteReq _ d | .groupWriteInd _ d => Displayable d
  | _ => True

end Spec

/-- C49: a connected client with a transport sends a message exactly if the datapoint in it can be displayed and the message
can be encoded. -/
theorem c49_sends {c : Client} (hc : c.connected = true) (ht : c.transport = true) (m : InMsg) :
    (∃ f, (Client.step c (.write m)).wire = c.wire ++ [f]) ↔ Presentable m ∧ ∃ f, (encodeMsg m c.state).1 = .ok f := by
  have hf : formatIn m = .ok () ↔ Presentable m := by
    have hd : ∀ d : Dpt, d.repr = .ok () ↔ Displayable d := by
      intro d
      rw [repr_eq]
      split_ifs with h <;> simp [h]
    cases m with
    | groupWriteReq _ d => exact hd d
    | groupWriteInd _ d => exact hd d
    | _ => exact ⟨fun _ => trivial, fun _ => rfl⟩
  constructor
  · rintro ⟨f, h⟩
    obtain ⟨-, -, h1, h2⟩ := (c49_written m c).1 h
    exact ⟨hf.1 h1, f, h2⟩
  · rintro ⟨h1, f, h2⟩
    exact ⟨f, (c49_written m c).2 ⟨hc, ht, hf.2 h1, h2⟩⟩

example : ¬ ∃ f, (Client.step exClient (.write (.groupWriteInd ⟨7, none⟩ ⟨.setupClima, 0x09000000⟩))).wire = exClient.wire ++ [f] := by
  rw [c49_sends (c := exClient) rfl rfl]
  exact fun h => absurd h.1 (by show ¬ Displayable ⟨.setupClima, 0x09000000⟩; decide)

/-! ## C61 -/

/-- C61: an acknowledgement with a defined status is one message for the owner of the client, with the counter the client
then uses; with another status there is none. -/
theorem c61_ack {c : Client} (hm : c.state.medium = .knxnetIp) (l1 l2 h chan q st : Byte) (rest : Msg) :
    (∀ code : ErrorCode, st.toNat = code.toNat →
      (Client.step c (.datagram (datagram 0x04 0x21 l1 l2 ([h, chan, q, st] ++ rest)))).decoded =
        c.decoded ++ [.tunnelingAck (if c.state.seqLocal = q.toNat then (q.toNat + 1) % 256 else c.state.seqLocal) code]) ∧
    ((∀ code : ErrorCode, st.toNat ≠ code.toNat) →
      (Client.step c (.datagram (datagram 0x04 0x21 l1 l2 ([h, chan, q, st] ++ rest)))).decoded = c.decoded) := by
  have hd : decodeMsg (datagram 0x04 0x21 l1 l2 ([h, chan, q, st] ++ rest)) c.state =
      tunnelingAckDecode (l1 :: l2 :: h :: chan :: q :: st :: rest) c.state := by
    rw [decode_ip hm]
    simp only [datagram, List.cons_append, List.nil_append]
    rw [ip_dispatch, if_pos (by decide), if_neg (by decide), if_neg (by decide), if_neg (by decide), if_neg (by decide),
      if_neg (by decide), if_pos (by decide)]
  have hs : (if c.state.seqLocal = q.toNat then c.state.setSeqLocal (c.state.seqLocal + 1) else c.state).seqLocal =
      if c.state.seqLocal = q.toNat then (q.toNat + 1) % 256 else c.state.seqLocal := by
    split_ifs with hq
    · simp only [State.setSeqLocal, hq]
      omega
    · rfl
  rw [c49_received, hd]
  unfold tunnelingAckDecode
  simp only [short, octect, connHeader]
  constructor
  · intro code hcode
    have : errorCode st.toNat = .ok code := by rw [hcode]; cases code <;> rfl
    rw [this]
    simp only [messages, hs]
  · intro hn
    have : errorCode st.toNat = .error .valueError := by
      unfold errorCode
      split
      · exact absurd (by assumption) (hn .noError)
      · exact absurd (by assumption) (hn .hostProtocolType)
      · exact absurd (by assumption) (hn .versionNotSupported)
      · exact absurd (by assumption) (hn .sequenceNumber)
      · rfl
    rw [this]
    simp

example : (Client.step exClient (.datagram (datagram 0x04 0x21 0 10 ([4, 0, 0, 3] ++ [])))).decoded =
    exClient.decoded ++ [.tunnelingAck 1 .sequenceNumber] :=
  (c61_ack (c := exClient) rfl 0 10 4 0 0 3 []).1 .sequenceNumber rfl

end Knx
