import Verif.Spec.Alike
import Verif.Props.Responses

/-! # C99, C100: what of a received telegram is without effect, and the lengths it declares -/

namespace Knx
open Spec

theorem alike_addressType {k : Kind} {t t' : Telegram} (h : Interchangeable k t t') :
    (ldataOf t).addressType = (ldataOf t').addressType := by
  by_cases hg : t.IsGroup
  · rw [addressType_group hg, addressType_group (h.group.1 hg)]
  · rw [addressType_individual hg, addressType_individual fun h' => hg (h.group.2 h')]

theorem alike_nsdu {k : Kind} {t t' : Telegram} (h : Interchangeable k t t') : (ldataOf t).nsdu = (ldataOf t').nsdu := by
  unfold LData.nsdu
  have h1 : (ldataOf t).tpci = (ldataOf t').tpci := h.tpci
  have h2 : (ldataOf t).destination = (ldataOf t').destination := h.destination
  rw [alike_addressType h, h1, h2]

theorem alike_conf {k : Kind} {t t' : Telegram} (h : Interchangeable k t t') : k.conf (ldataOf t) = k.conf (ldataOf t') := by
  cases k with
  | ind => rfl
  | con =>
    have hs := h.status rfl
    unfold Telegram.status at hs
    have e : ∀ t : Telegram, (ldataOf t).status = if t.ctrl1.toNat % 2 = 0 then .ok else .ko := by
      intro t
      unfold LData.status getB getField
      simp only [pow_zero, Nat.div_one, pow_one]
      rfl
    show Conf.con (ldataOf t).status = Conf.con (ldataOf t').status
    rw [e, e, hs]

theorem alike_groupService {k : Kind} {t t' : Telegram} (h : Interchangeable k t t') (svc : Svc) (T : Tables) (m : Msg) :
    groupServiceDecode svc k T (ldataOf t) m = groupServiceDecode svc k T (ldataOf t') m := by
  unfold groupServiceDecode groupValueDecode
  have h2 : (ldataOf t).destination = (ldataOf t').destination := h.destination
  rw [h2, alike_conf h]

theorem alike_code {k : Kind} {t t' : Telegram} (h : Interchangeable k t t') :
    (ldataOf t).apciFull = (ldataOf t').apciFull ∧ (ldataOf t).data = (ldataOf t').data := by
  have h1 : (ldataOf t).tpci = (ldataOf t').tpci := h.tpci
  have h2 : (ldataOf t).apci = (ldataOf t').apci := h.apci
  unfold LData.apciFull LData.data
  rw [h1, h2]
  exact ⟨rfl, rfl⟩

theorem alike_property {k : Kind} {t t' : Telegram} (h : Interchangeable k t t') (m : Msg) :
    propertyDispatch k (ldataOf t) m = propertyDispatch k (ldataOf t') m := by
  unfold propertyDispatch propertyServiceDecode
  rw [(alike_code h).1, alike_conf h]

theorem alike_decode {k : Kind} {t t' : Telegram} (h : Interchangeable k t t') (T : Tables) :
    lDataDecode k T (ldataOf t) (payload t) = lDataDecode k T (ldataOf t') (payload t') := by
  have hp : payload t = payload t' := by
    unfold payload
    rw [h.rest, h.apci]
  have h2 : (ldataOf t).destination = (ldataOf t').destination := h.destination
  rw [hp]
  by_cases hg : t.IsGroup
  · unfold lDataDecode
    rw [addressType_group hg, addressType_group (h.group.1 hg)]
    simp only
    unfold nDataGroupDecode tDataGroupDecode
    rw [h2, alike_nsdu h, (alike_code h).1, (alike_code h).2, alike_groupService h, alike_groupService h, alike_groupService h]
  · unfold lDataDecode
    rw [addressType_individual hg, addressType_individual fun h' => hg (h.group.2 h')]
    simp only
    unfold nDataIndividualDecode tDataIndividualDecode
    rw [h2, alike_nsdu h, alike_property h]
    cases k with
    | con => rfl
    | ind =>
      have h3 : (ldataOf t).source = (ldataOf t').source := h.source rfl hg
      rw [h3]

/-- C99: two telegrams that agree in what a receiver needs are decoded to the same messages, or raise the same exception, in
whatever frames, with whatever additional information, on whatever channel they come; and the state is afterwards the same
except for the last received link frame. -/
theorem c99_alike {s : State} {k : Kind} {t t' : Telegram} (h : Interchangeable k t t') {info info' f f' : Msg} (hi : info.length < 256)
    (hi' : info'.length < 256) {pre pre' : List OutMsg} (hc : Carries s (cemi (codeOf k) info t) f pre)
    (hc' : Carries s (cemi (codeOf k) info' t') f' pre') :
    (decodeMsg f s).1 = (decodeMsg f' s).1 ∧
    { (decodeMsg f s).2 with ldata := none } = { (decodeMsg f' s).2 with ldata := none } := by
  have e := codeOf_cemi (k := k) t hi s
  have e' := codeOf_cemi (k := k) t' hi' s
  rw [← alike_decode h] at e'
  have hpre : pre = pre' := by
    cases hc with
    | usb pad hm hl =>
      cases hc' with
      | usb pad' hm' hl' => rfl
      | ip chan seq hm' hs => rw [hm] at hm'; cases hm'
    | ip chan seq hm hs =>
      cases hc' with
      | usb pad' hm' hl' => rw [hm] at hm'; cases hm'
      | ip chan' seq' hm' hs' => rw [← hs, ← hs']
  subst hpre
  rcases hr : lDataDecode k s.tables (ldataOf t) (payload t) with x | r <;> rw [hr] at e e'
  · rw [carries_error hc e, carries_error hc' e']
    exact ⟨rfl, rfl⟩
  · cases r with
    | list l =>
      rw [carries_list hc e, carries_list hc' e']
      exact ⟨rfl, rfl⟩
    | none =>
      have key : ∀ {m f : Msg} {s' : State}, Carries s m f pre → msgCodeDecode m s = (.ok .none, s') →
          decodeMsg f s = (.ok (if s.medium = .usbHid then .none else .list pre), s') := by
        intro m f s' hc e
        cases hc with
        | usb pad hm hl =>
          rw [if_pos hm]
          unfold decodeMsg
          rw [hm]
          simp only [usb_open hl pad s, e]
        | ip chan seq hm hs =>
          rw [if_neg (by rw [hm]; decide), decode_ip hm, ip_open _ hs, e]
          rfl
      rw [key hc e, key hc' e']
      exact ⟨rfl, rfl⟩
    | tuple l =>
      exfalso
      unfold lDataDecode nDataIndividualDecode nDataGroupDecode at hr
      repeat' split at hr
      all_goals cases hr

/-! ## C100 -/

/-- C100 is false of the total length of a tunnelling request: octets behind it are taken as part of the telegram. -/
theorem c100_total_refuted {s : State} (hm : s.medium = .knxnetIp) (chan seq : Byte) (m x : Msg) :
    decodeMsg (tunnelRequest chan seq m ++ x) s = decodeMsg (tunnelRequest chan seq (m ++ x)) s := by
  have key : ∀ l1 l2 l1' l2' : Byte, decodeMsg (tunnelDatagram l1 l2 4 chan seq 0 (m ++ x)) s =
      decodeMsg (tunnelDatagram l1' l2' 4 chan seq 0 (m ++ x)) s := by
    intro l1 l2 l1' l2'
    rw [decode_ip hm, decode_ip hm, tunnel_open, tunnel_open]
  unfold tunnelRequest
  rw [octetsOf_two, octetsOf_two]
  exact key _ _ _ _

/-- C100 is false of the length that a telegram declares: whatever octets follow, in a tunnelling request or in a USB report, are
part of the value, which is then another one. -/
theorem c100_length_refuted {s : State} {a : AssocTable} {g : GroupObjectTable} (ha : s.assoc = some a)
    (hg : s.got = some g) {t : Telegram} (htg : t.IsGroup) (htd : t.IsData) (h0 : t.destination ≠ 0)
    (hm : t.destination ∈ a.at_.gas.map Addr.fs) {vs : List Int} (hr : a.Routes ⟨0, t.destination⟩ vs) (hv : vs ≠ [])
    (_hl : t.length.toNat = t.rest.length + 1) (hne : t.rest ≠ []) (x : Msg)
    {k : Kind} {info f : Msg} (hi : info.length < 256) {pre : List OutMsg}
    (hc : Carries s (cemi (codeOf k) info t ++ x) f pre) {svc : Svc} (hs : t.service = some svc)
    (hf : FirstDisplayable (fanOut svc (confOf k t) g vs (t.value * 256 ^ x.length + number x))) :
    (decodeMsg f s).1 = .ok (.list (pre ++ fanOut svc (confOf k t) g vs (t.value * 256 ^ x.length + number x))) := by
  have hv' : ({ t with rest := t.rest ++ x } : Telegram).value = t.value * 256 ^ x.length + number x := by
    unfold Telegram.value
    rw [if_neg hne, if_neg (by simp [hne]), number_append]
  have hx : cemi (codeOf k) info t ++ x = cemi (codeOf k) info { t with rest := t.rest ++ x } := by
    simp [cemi, Telegram.octets]
  have hk : confOf k { t with rest := t.rest ++ x } = confOf k t := by cases k <;> rfl
  rw [hx] at hc
  have := (c29_fanout_partial (t := { t with rest := t.rest ++ x }) ha hg htg htd h0 hm hr hv hi hc (svc := svc) hs
    (by rw [hv', hk]; exact hf)).1
  rw [hv', hk] at this
  exact this

/-- What holds of C100: octets behind the length that a USB report declares are not looked at. Missing from the full claim: the
total length of a tunnelling request (`c100_total_refuted`) and the length in the telegram (`c100_length_refuted`). -/
theorem c100_partial {s : State} (hm : s.medium = .usbHid) {m : Msg} (hl : m.length + 8 < 256) (x : Msg) :
    decodeMsg (usbReport m ++ x) s = decodeMsg (usbReport m) s := by
  have := usb_open hl [] s
  rw [List.append_nil] at this
  unfold decodeMsg
  rw [hm]
  simp only [usb_open hl x s, this]

/-! ## Examples -/

/-- The telegram of the other examples, as it might be repeated by a coupler: other control octets, source and length. -/
def exRepeated : Telegram := { exTelegram with ctrl1 := 0x9D, ctrl2 := 0xD0, source := 0x2233, length := 0x7F }

theorem exRepeated_alike : Interchangeable .ind exTelegram exRepeated :=
  ⟨by constructor <;> intro _ <;> show 128 ≤ _ <;> decide, rfl, rfl, rfl, rfl, nofun, fun _ h => absurd (show 128 ≤ _ by decide) h⟩

example : (decodeMsg (tunnelRequest 9 255 (cemi 0x29 [] exTelegram)) (exState .knxnetIp)).1 =
    (decodeMsg (tunnelRequest 3 255 (cemi 0x29 [1, 2] exRepeated)) (exState .knxnetIp)).1 :=
  (c99_alike exRepeated_alike (by decide) (by decide) (.ip 9 255 rfl (by decide)) (.ip 3 255 rfl (by decide))).1

example : decodeMsg (tunnelRequest 9 255 (cemi 0x29 [] exTelegram) ++ [0, 0]) (exState .knxnetIp) =
    decodeMsg (tunnelRequest 9 255 (cemi 0x29 [] exTelegram ++ [0, 0])) (exState .knxnetIp) :=
  c100_total_refuted rfl 9 255 _ _

example : decodeMsg (usbReport (cemi 0x29 [] exTelegram) ++ [0xAA, 0]) (exState .usbHid) =
    decodeMsg (usbReport (cemi 0x29 [] exTelegram)) (exState .usbHid) :=
  c100_partial rfl (by decide) _

/-- One octet too many makes 0x6501 of the temperature 0x0C65. -/
example : (decodeMsg (tunnelRequest 7 255 (cemi 0x29 [] exTelegram ++ [1])) (exState .knxnetIp)).1 =
    .ok (.list [.tunnelingReq 255 .noError, .group .write .ind ⟨3, none⟩ ⟨.switch, 1⟩,
      .group .write .ind ⟨7, none⟩ ⟨.float16, 0x6501⟩]) := by
  refine c100_length_refuted (s := exState .knxnetIp) (t := exTelegram) (vs := [7, 3]) (k := .ind) rfl rfl (by
    show 128 ≤ _; decide) (by show _ < 4; decide) (by decide) (by decide) ?_ (by decide) (by decide) (by decide) [1]
    (info := []) (by decide) (.ip 7 255 rfl (by decide)) (svc := .write) (by decide) (by decide)
  exact c08_exclusive_partial exAt exOps (by decide) (by decide) (by decide) _

end Knx
