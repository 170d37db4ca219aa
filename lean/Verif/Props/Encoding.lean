import Verif.Lemmas.Requests
import Verif.Props.Telegrams

/-! # C28, C23–C25: the frames of group requests, and decoding them -/

namespace Knx

open Spec

theorem finish_ok {s : State} {m f : Msg} (h : finish .req s m = .ok f) : envelope s m = some f := by
  unfold finish at h
  simp only at h
  cases he : envelope s m with
  | none => rw [he] at h; cases h
  | some g => rw [he] at h; cases h; rfl

theorem finish_envelope {s : State} {m f : Msg} (h : envelope s m = some f) : finish .req s m = .ok f := by
  unfold finish
  simp only [h]

/-- The encoder needs an association table. -/
theorem encode_assoc {s : State} (h : s.assoc = none) {k : EncKind} {m f : Msg} : tDataGroupEncode k s m ≠ .ok f := by
  intro h'
  unfold tDataGroupEncode State.getTsaps at h'
  rw [h] at h'
  cases h'

/-! ## C28 -/

/-- The frame of a write request, in terms of the addresses the encoder gets from the table. -/
theorem write_frame {s : State} {asap : Asap} {d : Dpt} {f : Msg}
    (h : (encodeMsg (.groupWriteReq asap d) s).1 = .ok f) :
    ∃ a g c as, s.assoc = some a ∧ s.got = some g ∧ typeIn g asap.value = some c ∧ a.sendAddresses asap = .ok as ∧
      ∀ x, as.head? = some x → envelope s (cemi 0x11 [] (writeTelegram x c d.raw)) = some f := by
  change (groupWriteEncode .req asap d s).1 = .ok f at h
  cases ha : s.assoc with
  | none =>
    unfold groupWriteEncode at h
    simp only at h
    generalize hd : State.getDpt _ = r at h
    rcases r with e | c
    · cases h
    · exact absurd h (encode_assoc (s := { s with asap := some asap, apci := some 0x80, addressType := some .group }) ha)
  | some a =>
    cases hg : s.got with
    | none =>
      unfold groupWriteEncode State.getDpt at h
      simp only [hg] at h
      cases h
    | some g =>
      rw [groupWrite_eq .req ha hg] at h
      simp only at h
      cases hc : typeIn g asap.value with
      | none => rw [hc] at h; cases h
      | some c =>
        rw [hc] at h
        simp only at h
        rcases hs : a.sendAddresses asap with e | as
        · rw [hs] at h; cases h
        · refine ⟨a, g, c, as, rfl, rfl, hc, hs, ?_⟩
          intro x hx
          cases as with
          | nil => cases hx
          | cons y as =>
            simp only [List.head?_cons, Option.some.injEq] at hx
            subst hx
            rw [hs] at h
            exact finish_ok h

/-- A write request is encoded when the encoder gets an address from the table. -/
theorem write_sent {s : State} {a : AssocTable} {g : GroupObjectTable} {asap : Asap} {d : Dpt} {c : DptClass}
    {x : BitVec 16} {as : List (BitVec 16)} {f : Msg} (ha : s.assoc = some a) (hg : s.got = some g)
    (hc : typeIn g asap.value = some c) (hs : a.sendAddresses asap = .ok (x :: as))
    (hf : envelope s (cemi 0x11 [] (writeTelegram x c d.raw)) = some f) :
    (encodeMsg (.groupWriteReq asap d) s).1 = .ok f := by
  change (groupWriteEncode .req asap d s).1 = .ok f
  rw [groupWrite_eq .req ha hg]
  simp only [hc, hs]
  exact finish_envelope hf

/-- The frame of a read request, in terms of the addresses the encoder gets from the table. -/
theorem read_frame {s : State} {asap : Asap} {f : Msg} (h : (encodeMsg (.groupRead asap) s).1 = .ok f) :
    ∃ a as, s.assoc = some a ∧ a.sendAddresses asap = .ok as ∧
      ∀ x, as.head? = some x → envelope s (cemi 0x11 [] (readTelegram x)) = some f := by
  change (groupReadEncode asap s).1 = .ok f at h
  cases ha : s.assoc with
  | none =>
    exact absurd h (encode_assoc (s := { s with apci := some 0, asap := some asap, addressType := some .group }) ha)
  | some a =>
    rw [groupRead_eq ha] at h
    simp only at h
    rcases hs : a.sendAddresses asap with e | as
    · rw [hs] at h; cases h
    · refine ⟨a, as, rfl, hs, ?_⟩
      intro x hx
      cases as with
      | nil => cases hx
      | cons y as =>
        simp only [List.head?_cons, Option.some.injEq] at hx
        subst hx
        rw [hs] at h
        exact finish_ok h

/-- A read request is encoded when the encoder gets an address from the table. -/
theorem read_sent {s : State} {a : AssocTable} {asap : Asap} {x : BitVec 16} {as : List (BitVec 16)} {f : Msg}
    (ha : s.assoc = some a) (hs : a.sendAddresses asap = .ok (x :: as))
    (hf : envelope s (cemi 0x11 [] (readTelegram x)) = some f) : (encodeMsg (.groupRead asap) s).1 = .ok f := by
  change (groupReadEncode asap s).1 = .ok f
  rw [groupRead_eq ha]
  simp only [hs]
  exact finish_envelope hf

/-- The frame of an encoded indication, in terms of the addresses the encoder gets from the table. -/
theorem indication_frame {s : State} {asap : Asap} {d : Dpt} {f : Msg}
    (h : (encodeMsg (.groupWriteInd asap d) s).1 = .ok f) :
    ∃ a g c as, s.assoc = some a ∧ s.got = some g ∧ typeIn g asap.value = some c ∧ a.sendAddresses asap = .ok as ∧
      ∀ x, as.head? = some x → f = usbReport (cemi 0x29 [] (writeTelegram x c d.raw)) := by
  change (groupWriteEncode .ind asap d s).1 = .ok f at h
  cases ha : s.assoc with
  | none =>
    unfold groupWriteEncode at h
    simp only at h
    generalize hd : State.getDpt _ = r at h
    rcases r with e | c
    · cases h
    · exact absurd h (encode_assoc (s := { s with asap := some asap, apci := some 0x80, addressType := some .group }) ha)
  | some a =>
    cases hg : s.got with
    | none =>
      unfold groupWriteEncode State.getDpt at h
      simp only [hg] at h
      cases h
    | some g =>
      rw [groupWrite_eq .ind ha hg] at h
      simp only at h
      cases hc : typeIn g asap.value with
      | none => rw [hc] at h; cases h
      | some c =>
        rw [hc] at h
        simp only at h
        rcases hs : a.sendAddresses asap with e | as
        · rw [hs] at h; cases h
        · refine ⟨a, g, c, as, rfl, rfl, hc, hs, ?_⟩
          intro x hx
          cases as with
          | nil => cases hx
          | cons y as =>
            simp only [List.head?_cons, Option.some.injEq] at hx
            subst hx
            rw [hs] at h
            cases h
            rfl

/-- The addresses the encoder gets for an ASAP are exactly those listed for it, in the order of the association, all of
them in the address table. -/
theorem send_listed {t : AssocTable} {asap : Asap} {as : List (BitVec 16)} (h : t.sendAddresses asap = .ok as) :
    as = addressesOf t.absDict asap.value ∧ ∀ x ∈ as, x ∈ t.at_.gas.map Addr.fs ∨ x = t.at_.ind.fs := by
  cases hd : dictGet Asap.eq t.asapAddrs asap with
  | none => rw [AssocTable.send_unknown hd] at h; cases h
  | some l =>
    have hl := AssocTable.absDict_get t asap
    rw [hd] at hl
    simp only [Option.getD_some] at hl
    by_cases hr : ∀ a ∈ l, t.at_.getTsap a ≠ none
    · rw [AssocTable.send_resolved hd hr] at h
      injection h with h
      refine ⟨h ▸ hl, ?_⟩
      intro x hx
      rw [← h] at hx
      obtain ⟨a, ha, rfl⟩ := List.mem_map.1 hx
      have := hr a ha
      by_contra hc
      push Not at hc
      exact this (AddressTable.getTsap_none.2 hc)
    · push Not at hr
      unfold AssocTable.sendAddresses AssocTable.getTsaps at h
      rw [hd] at h
      simp only at h
      rw [AssocTable.getAddresses_unresolved hr] at h
      cases h

/-- The encoder gets the addresses listed for an ASAP when there are any and all are in the address table. -/
theorem listed_send {t : AssocTable} {asap : Asap} {x : BitVec 16} {as : List (BitVec 16)}
    (h : addressesOf t.absDict asap.value = x :: as) (hk : ∀ y ∈ x :: as, y ∈ t.at_.gas.map Addr.fs ∨ y = t.at_.ind.fs) :
    t.sendAddresses asap = .ok (x :: as) := by
  have hl := AssocTable.absDict_get t asap
  cases hd : dictGet Asap.eq t.asapAddrs asap with
  | none => rw [hd, h] at hl; cases hl
  | some l =>
    rw [hd, h] at hl
    simp only [Option.getD_some] at hl
    rw [← hl]
    refine AssocTable.send_resolved hd fun a ha hn => ?_
    rw [AddressTable.getTsap_none] at hn
    rcases hk a.fs (by rw [← hl]; exact List.mem_map.2 ⟨a, ha, rfl⟩) with h | h
    · exact hn.1 h
    · exact hn.2 h

/-- C28: a group value write request is encoded as exactly the specified frame, to the address listed first for the ASAP
and of the type registered for it (whatever the class of the datapoint in the message). Missing from the full claim: an
ASAP without addresses (`c28_refuted`). -/
theorem c28_write_partial {s : State} {asap : Asap} {d : Dpt} {f : Msg}
    (h : (encodeMsg (.groupWriteReq asap d) s).1 = .ok f) :
    ∃ a g c, s.assoc = some a ∧ s.got = some g ∧ typeIn g asap.value = some c ∧
      (∀ x ∈ addressesOf a.absDict asap.value, x ∈ a.at_.gas.map Addr.fs ∨ x = a.at_.ind.fs) ∧
      ∀ x, (addressesOf a.absDict asap.value).head? = some x →
        envelope s (cemi 0x11 [] (writeTelegram x c d.raw)) = some f := by
  obtain ⟨a, g, c, as, h1, h2, h3, h4, h5⟩ := write_frame h
  obtain ⟨rfl, hk⟩ := send_listed h4
  exact ⟨a, g, c, h1, h2, h3, hk, h5⟩

/-- C28: and it is encoded whenever the ASAP has a type and addresses, all in the address table, and the medium a
channel. -/
theorem c28_write_succeeds {s : State} {a : AssocTable} {g : GroupObjectTable} {asap : Asap} {d : Dpt} {c : DptClass}
    {x : BitVec 16} {as : List (BitVec 16)} {f : Msg} (ha : s.assoc = some a) (hg : s.got = some g)
    (hc : typeIn g asap.value = some c) (hs : addressesOf a.absDict asap.value = x :: as)
    (hk : ∀ y ∈ x :: as, y ∈ a.at_.gas.map Addr.fs ∨ y = a.at_.ind.fs)
    (hf : envelope s (cemi 0x11 [] (writeTelegram x c d.raw)) = some f) :
    (encodeMsg (.groupWriteReq asap d) s).1 = .ok f :=
  write_sent ha hg hc (listed_send hs hk) hf

/-- C28 for group value read requests. Missing from the full claim: an ASAP without addresses (`c28_refuted`). -/
theorem c28_read_partial {s : State} {asap : Asap} {f : Msg} (h : (encodeMsg (.groupRead asap) s).1 = .ok f) :
    ∃ a, s.assoc = some a ∧
      (∀ x ∈ addressesOf a.absDict asap.value, x ∈ a.at_.gas.map Addr.fs ∨ x = a.at_.ind.fs) ∧
      ∀ x, (addressesOf a.absDict asap.value).head? = some x → envelope s (cemi 0x11 [] (readTelegram x)) = some f := by
  obtain ⟨a, as, h1, h4, h5⟩ := read_frame h
  obtain ⟨rfl, hk⟩ := send_listed h4
  exact ⟨a, h1, hk, h5⟩

/-- C28: a read request is encoded whenever the ASAP has addresses, all in the address table, and the medium a channel. -/
theorem c28_read_succeeds {s : State} {a : AssocTable} {asap : Asap} {x : BitVec 16} {as : List (BitVec 16)} {f : Msg}
    (ha : s.assoc = some a) (hs : addressesOf a.absDict asap.value = x :: as)
    (hk : ∀ y ∈ x :: as, y ∈ a.at_.gas.map Addr.fs ∨ y = a.at_.ind.fs)
    (hf : envelope s (cemi 0x11 [] (readTelegram x)) = some f) : (encodeMsg (.groupRead asap) s).1 = .ok f :=
  read_sent ha (listed_send hs hk) hf

/-- C28 for encoded indications: always a USB report, whatever the medium, with message code 0x29. Missing from the full
claim: an ASAP without addresses. -/
theorem c28_indication_partial {s : State} {asap : Asap} {d : Dpt} {f : Msg}
    (h : (encodeMsg (.groupWriteInd asap d) s).1 = .ok f) :
    ∃ a g c, s.assoc = some a ∧ s.got = some g ∧ typeIn g asap.value = some c ∧
      (∀ x ∈ addressesOf a.absDict asap.value, x ∈ a.at_.gas.map Addr.fs ∨ x = a.at_.ind.fs) ∧
      ∀ x, (addressesOf a.absDict asap.value).head? = some x → f = usbReport (cemi 0x29 [] (writeTelegram x c d.raw)) := by
  obtain ⟨a, g, c, as, h1, h2, h3, h4, h5⟩ := indication_frame h
  obtain ⟨rfl, hk⟩ := send_listed h4
  exact ⟨a, g, c, h1, h2, h3, hk, h5⟩

/-- C28 is false for an ASAP without addresses: a frame without destination and length is produced, which is the frame of
no telegram at all. -/
theorem c28_refuted : ∃ (s : State) (asap : Asap) (f : Msg), s.medium = .usbHid ∧
    (encodeMsg (.groupRead asap) s).1 = .ok f ∧ ∀ t : Telegram, envelope s (cemi 0x11 [] t) ≠ some f := by
  let a := (AssocTable.init exAt []).2.afterAll [.associate ⟨5, none⟩ []]
  refine ⟨State.init .usbHid (some a) none, ⟨5, none⟩, usbReport [0x11, 0, 0x96, 0xE0, 0, 0, 0], rfl, by decide, ?_⟩
  intro t h
  have h' : usbReport (cemi 0x11 [] t) = usbReport [0x11, 0, 0x96, 0xE0, 0, 0, 0] := Option.some.inj h
  have hl := congrArg List.length h'
  simp [usbReport, cemi_length, octetsOf_length] at hl
  omega

/-- Writing 21.7 °C to ASAP 7, sent on KNXnet/IP. -/
example : (encodeMsg (.groupWriteReq ⟨7, none⟩ ⟨.float16, 0x0C3D⟩) (exState .knxnetIp)).1 =
    .ok [0x06, 0x10, 0x04, 0x20, 0x00, 0x17, 0x04, 0x00, 0x00, 0x00, 0x11, 0x00, 0x96, 0xE0, 0x00, 0x00, 0x0E, 0x89, 0x03,
      0x00, 0x80, 0x0C, 0x3D] :=
  c28_write_succeeds (a := (AssocTable.init exAt []).2.afterAll exOps) (g := exGops.foldl GroupObjectTable.after [])
    (c := .float16) (x := 0x0E89) (as := [0x0001]) rfl rfl (by decide +kernel) (by decide +kernel)
    (by simp only [List.mem_cons, List.not_mem_nil, or_false, forall_eq_or_imp, forall_eq]; decide +kernel) (by decide +kernel)

/-! ## Decoding what was encoded -/

theorem request_isGroup (x : BitVec 16) (code : Nat) (rest : Msg) : (request true x code rest).IsGroup := by
  show 128 ≤ (0xE0 : Byte).toNat
  decide

theorem request_isData {g : Bool} {x : BitVec 16} {code : Nat} (h : code < 1024) (rest : Msg) :
    (request g x code rest).IsData := by
  show (BitVec.ofNat 8 (code / 256)).toNat < 4
  rw [BitVec.toNat_ofNat]
  omega

theorem request_code {g : Bool} {x : BitVec 16} {code : Nat} (h : code < 1024) (rest : Msg) :
    (request g x code rest).code = code := by
  show (BitVec.ofNat 8 (code / 256)).toNat % 4 * 256 + (BitVec.ofNat 8 code).toNat = code
  rw [BitVec.toNat_ofNat, BitVec.toNat_ofNat]
  omega

/-- What the specified write telegram says. -/
theorem writeTelegram_facts (x : BitVec 16) (c : DptClass) (n : Nat) :
    (writeTelegram x c n).IsGroup ∧ (writeTelegram x c n).IsData ∧ (writeTelegram x c n).destination = x ∧
      (writeTelegram x c n).service = some .write ∧ (writeTelegram x c n).value = writtenValue c n ∧
      (writeTelegram x c n).ctrl1 = 0x96 ∧ (writeTelegram x c n).rest.length ≤ 4 := by
  unfold writeTelegram writtenValue
  split_ifs with hb
  · have hq : n % 64 < 64 := Nat.mod_lt _ (by decide)
    generalize n % 64 = q at hq
    refine ⟨request_isGroup _ _ _, request_isData (by omega) _, rfl, ?_, ?_, rfl, Nat.zero_le _⟩
    · unfold Telegram.service
      rw [request_code (by omega), if_neg (by omega), if_neg (by omega), if_pos (by omega)]
    · unfold Telegram.value
      rw [if_pos (show (request true x (0x80 + q) []).rest = [] from rfl)]
      show (BitVec.ofNat 8 (0x80 + q)).toNat = _
      rw [BitVec.toNat_ofNat]
      omega
  · have hpos : 0 < octets c ∧ octets c ≤ 4 := by cases c <;> decide
    refine ⟨request_isGroup _ _ _, request_isData (by omega) _, rfl, ?_, ?_, rfl, ?_⟩
    · unfold Telegram.service
      rw [request_code (by omega)]
      decide
    · unfold Telegram.value
      have : (request true x 0x80 (octetsOf (octets c) n)).rest = octetsOf (octets c) n := rfl
      rw [this, if_neg, number_octetsOf]
      intro h0
      have := octetsOf_length (octets c) n
      rw [h0] at this
      simp at this
      omega
    · show (octetsOf (octets c) n).length ≤ 4
      rw [octetsOf_length]
      exact hpos.2

/-- What the specified read telegram says. -/
theorem readTelegram_facts (x : BitVec 16) :
    (readTelegram x).IsGroup ∧ (readTelegram x).IsData ∧ (readTelegram x).destination = x ∧
      (readTelegram x).service = some .read ∧ (readTelegram x).value = 0 :=
  ⟨request_isGroup _ _ _, request_isData (by omega) _, rfl, by
    unfold Telegram.service
    rw [show (readTelegram x).code = 0 from request_code (by omega) _, if_pos rfl], rfl⟩

/-- A telegram as it comes back in a confirmation. -/
def confirmed (failed : Bool) (t : Telegram) : Telegram :=
  { t with ctrl1 := t.ctrl1 &&& 0xFE ||| if failed then 1 else 0 }

theorem confirmation_cemi (failed : Bool) (t : Telegram) :
    confirmation failed (cemi 0x11 [] t) = cemi (codeOf .con) [] (confirmed failed t) := rfl

theorem indication_cemi (t : Telegram) : indication (cemi 0x11 [] t) = cemi (codeOf .ind) [] t := rfl

theorem confirmed_status (failed : Bool) (t : Telegram) (h : t.ctrl1 = 0x96) :
    (confirmed failed t).status = statusOf failed := by
  unfold Telegram.status
  rw [show (confirmed failed t).ctrl1 = 0x96 &&& 0xFE ||| if failed then 1 else 0 by rw [← h]; rfl]
  cases failed <;> decide

theorem mem_replicate_count {l : List (BitVec 16)} {x : BitVec 16} {v : Int} (h : x ∈ l) :
    v ∈ List.replicate (l.count x) v :=
  List.mem_replicate.2 ⟨Nat.pos_iff_ne_zero.1 (List.count_pos_iff.2 h), rfl⟩

/-- In a table without unknown addresses, the first address of an ASAP is routed to that ASAP. -/
theorem send_first {t : AssocTable} (hk : Known t) (hb : t.rebuild = t) {asap : Asap} {x : BitVec 16}
    {as : List (BitVec 16)} (hs : t.sendAddresses asap = .ok (x :: as)) :
    (x ≠ t.at_.ind.fs → x ∈ t.at_.gas.map Addr.fs) ∧ t.Routes ⟨0, x⟩ (Spec.routed t.absDict x) ∧
      asap.value ∈ Spec.routed t.absDict x := by
  cases hd : dictGet Asap.eq t.asapAddrs asap with
  | none =>
    unfold AssocTable.sendAddresses AssocTable.getTsaps at hs
    rw [hd] at hs
    cases hs
  | some l =>
    obtain ⟨k', hk', he⟩ := dictGet_mem asap_keyEq hd
    have h1 := AssocTable.send_resolved hd fun a ha => known_iff.1 hk _ hk' a ha
    rw [hs] at h1
    have h2 : x :: as = l.map Addr.fs := by simpa using h1
    have hx : x ∈ l.map Addr.fs := by rw [← h2]; exact List.mem_cons_self
    refine ⟨?_, routes_of_objs (routes_known hk hb ⟨0, x⟩), ?_⟩
    · intro hne
      rcases hk x ((total_pos _ _).2 ⟨(k'.value, l.map Addr.fs), List.mem_map.2 ⟨_, hk', rfl⟩, hx⟩) with h | h
      · exact h
      · exact absurd h hne
    · unfold Spec.routed
      refine List.mem_flatMap.2 ⟨(k'.value, l.map Addr.fs), List.mem_map.2 ⟨_, hk', rfl⟩, ?_⟩
      have hv : k'.value = asap.value := by simpa [Asap.eq] using he
      rw [← hv]
      exact mem_replicate_count hx

/-! ## C23 -/

/-- C23: encoding a group value write indication and decoding the frame, padded in any way, on USB yields one indication
for each group object on the ASAP's first address, carrying the written value, in any state with the same tables. Missing
from the full claim: a first address that is 0 or only the own individual address (`c23_refuted`), and values that cannot
be displayed (`c31_refuted`). -/
theorem c23_partial {s s' : State} {a : AssocTable} {g : GroupObjectTable} (ha : s.assoc = some a) (hg : s.got = some g)
    (ha' : s'.assoc = some a) (hg' : s'.got = some g) (hm : s'.medium = .usbHid) {asap : Asap} {d : Dpt} {f : Msg}
    (h : (encodeMsg (.groupWriteInd asap d) s).1 = .ok f) {x : BitVec 16} {as : List (BitVec 16)}
    (hs : a.sendAddresses asap = .ok (x :: as)) (h0 : x ≠ 0) (hx : x ∈ a.at_.gas.map Addr.fs) {vs : List Int}
    (hr : a.Routes ⟨0, x⟩ vs) (hv : vs ≠ []) (padding : Msg) :
    ∃ c, typeIn g asap.value = some c ∧
      (FirstDisplayable (fanOut .write .ind g vs (writtenValue c d.raw)) →
        (decodeMsg (f ++ padding) s').1 = .ok (.list (fanOut .write .ind g vs (writtenValue c d.raw)))) := by
  obtain ⟨a', g', c, as', e1, e2, e3, e4, e5⟩ := indication_frame h
  rw [ha] at e1
  cases e1
  rw [hg] at e2
  cases e2
  rw [hs] at e4
  cases e4
  refine ⟨c, e3, fun hf => ?_⟩
  rw [e5 x rfl]
  obtain ⟨f1, f2, f3, f4, f5, -, f7⟩ := writeTelegram_facts x c d.raw
  have := c29_fanout_partial (s := s') (t := writeTelegram x c d.raw) (k := .ind) (info := [])
    (f := usbReport (cemi 0x29 [] (writeTelegram x c d.raw)) ++ padding) (pre := []) ha' hg' f1 f2 (by rw [f3]; exact h0)
    (by rw [f3]; exact hx) (by rw [f3]; exact hr) hv (by decide)
    (.usb padding hm (by rw [cemi_length]; simp only [List.length_nil]; omega)) f4
  rw [f5] at this
  exact (this hf).1

/-- C23 is false if the ASAP's first address is the individual address: the frame is not delivered to anybody. -/
theorem c23_refuted : ∃ (s : State) (asap : Asap) (d : Dpt) (f : Msg), s.medium = .usbHid ∧
    (encodeMsg (.groupWriteInd asap d) s).1 = .ok f ∧
    (∃ a g vs, s.assoc = some a ∧ s.got = some g ∧ a.sendAddresses asap = .ok [0x1004] ∧ a.Routes ⟨0, 0x1004⟩ vs ∧
      fanOut .write .ind g vs d.raw ≠ []) ∧ (decodeMsg f s).1 = .ok (.list []) := by
  let a := (AssocTable.init exAt []).2
  refine ⟨State.init .usbHid (some a) (some [(⟨0, none⟩, .brightness)]), ⟨0, none⟩, ⟨.brightness, 7⟩,
    usbReport (cemi 0x29 [] (writeTelegram 0x1004 .brightness 7)), rfl, by decide, ⟨a, _, [0], rfl, rfl, by decide, ?_,
    by decide⟩, by decide⟩
  exact c08_exclusive_partial exAt [] (by decide) (by decide) (by decide) _

example : (decodeMsg (usbReport (cemi 0x29 [] (writeTelegram 0x0E89 .float16 0x0C3D)) ++ [0, 0]) (exState .usbHid)).1 =
    .ok (.list [.group .write .ind ⟨3, none⟩ ⟨.switch, 0x3D⟩, .group .write .ind ⟨7, none⟩ ⟨.float16, 0x0C3D⟩]) := by
  obtain ⟨c, hc, h⟩ := c23_partial (s := exState .knxnetIp) (s' := exState .usbHid) (asap := ⟨7, none⟩)
    (d := ⟨.float16, 0x0C3D⟩) (f := usbReport (cemi 0x29 [] (writeTelegram 0x0E89 .float16 0x0C3D))) rfl rfl rfl rfl rfl
    (by decide) (x := 0x0E89) (as := [1]) (by decide) (by decide) (by decide) (vs := [7, 3])
    (c08_exclusive_partial exAt exOps (by decide) (by decide) (by decide) _) (by decide) [0, 0]
  have : c = .float16 := Option.some.inj (hc.symm.trans (by decide))
  subst this
  exact h (by decide)

/-! ## C24 -/

/-- C24: the frame built for a group value write request, returned by the bus as a confirmation, decodes to write
confirmations carrying the requested value and the bus status for every ASAP on the address; on both media, whatever the
counters and the channel of the state that decodes it. Missing from the full claim: as for C23. -/
theorem c24_partial {s s' : State} {a : AssocTable} {g : GroupObjectTable} (ha : s.assoc = some a) (hg : s.got = some g)
    (ha' : s'.assoc = some a) (hg' : s'.got = some g) {asap : Asap} {d : Dpt} {f : Msg}
    (h : (encodeMsg (.groupWriteReq asap d) s).1 = .ok f) {x : BitVec 16} {as : List (BitVec 16)}
    (hs : a.sendAddresses asap = .ok (x :: as)) (h0 : x ≠ 0) (hx : x ∈ a.at_.gas.map Addr.fs) {vs : List Int}
    (hr : a.Routes ⟨0, x⟩ vs) (hv : vs ≠ []) :
    ∃ c m, typeIn g asap.value = some c ∧ envelope s m = some f ∧
      ∀ failed f' pre, Carries s' (confirmation failed m) f' pre →
        FirstDisplayable (fanOut .write (.con (statusOf failed)) g vs (writtenValue c d.raw)) →
        (decodeMsg f' s').1 = .ok (.list (pre ++ fanOut .write (.con (statusOf failed)) g vs (writtenValue c d.raw))) := by
  obtain ⟨a', g', c, as', e1, e2, e3, e4, e5⟩ := write_frame h
  rw [ha] at e1
  cases e1
  rw [hg] at e2
  cases e2
  rw [hs] at e4
  cases e4
  refine ⟨c, _, e3, e5 x rfl, fun failed f' pre hc hf => ?_⟩
  obtain ⟨f1, f2, f3, f4, f5, f6, -⟩ := writeTelegram_facts x c d.raw
  rw [confirmation_cemi] at hc
  have hst := confirmed_status failed _ f6
  have hco : confOf .con (confirmed failed (writeTelegram x c d.raw)) = .con (statusOf failed) := congrArg Conf.con hst
  have hval : (confirmed failed (writeTelegram x c d.raw)).value = writtenValue c d.raw := f5
  have := c29_fanout_partial (s := s') (t := confirmed failed (writeTelegram x c d.raw)) (k := .con) (info := [])
    (f := f') (pre := pre) ha' hg' f1 f2
    (show (writeTelegram x c d.raw).destination ≠ 0 by rw [f3]; exact h0)
    (show (writeTelegram x c d.raw).destination ∈ _ by rw [f3]; exact hx)
    (show a.Routes ⟨0, (writeTelegram x c d.raw).destination⟩ vs by rw [f3]; exact hr) hv (by decide) hc f4
  rw [hval, hco] at this
  exact (this hf).1

/-- C24 is false if the ASAP's first address is the individual address. -/
theorem c24_refuted : ∃ (s : State) (asap : Asap) (d : Dpt) (m : Msg), s.medium = .usbHid ∧
    (encodeMsg (.groupWriteReq asap d) s).1 = .ok (usbReport m) ∧
    (∃ a g vs, s.assoc = some a ∧ s.got = some g ∧ a.sendAddresses asap = .ok [0x1004] ∧ a.Routes ⟨0, 0x1004⟩ vs ∧
      fanOut .write .ind g vs d.raw ≠ []) ∧ (decodeMsg (usbReport (confirmation false m)) s).1 = .ok (.list []) := by
  let a := (AssocTable.init exAt []).2
  refine ⟨State.init .usbHid (some a) (some [(⟨0, none⟩, .brightness)]), ⟨0, none⟩, ⟨.brightness, 7⟩,
    cemi 0x11 [] (writeTelegram 0x1004 .brightness 7), rfl, by decide, ⟨a, _, [0], rfl, rfl, by decide, ?_,
    by decide⟩, by decide⟩
  exact c08_exclusive_partial exAt [] (by decide) (by decide) (by decide) _

example : (decodeMsg (tunnelRequest 9 255 (confirmation true (cemi 0x11 [] (writeTelegram 0x0E89 .float16 0x0C3D))))
    (exState .knxnetIp)).1 = .ok (.list [.tunnelingReq 255 .noError, .group .write (.con .ko) ⟨3, none⟩ ⟨.switch, 0x3D⟩,
      .group .write (.con .ko) ⟨7, none⟩ ⟨.float16, 0x0C3D⟩]) := by
  obtain ⟨c, m, hc, hm, h⟩ := c24_partial (s := exState .usbHid) (s' := exState .knxnetIp) (asap := ⟨7, none⟩)
    (d := ⟨.float16, 0x0C3D⟩) (f := usbReport (cemi 0x11 [] (writeTelegram 0x0E89 .float16 0x0C3D))) rfl rfl rfl rfl
    (by decide) (x := 0x0E89) (as := [1]) (by decide) (by decide) (by decide) (vs := [7, 3])
    (c08_exclusive_partial exAt exOps (by decide) (by decide) (by decide) _) (by decide)
  have : c = .float16 := Option.some.inj (hc.symm.trans (by decide))
  subst this
  have : m = cemi 0x11 [] (writeTelegram 0x0E89 .float16 0x0C3D) := by
    have := congrArg (List.drop 11) (Option.some.inj hm)
    simpa [usbReport, octetsOf] using this
  subst this
  exact h true _ _ (.ip 9 255 rfl (by decide)) (by decide)

/-! ## C25 -/

/-- C25: the frame built for a group value read request, returned as a confirmation or seen by others as an indication,
decodes to read messages for exactly the ASAPs on the address, on both media. Missing from the full claim: a first address
that is 0 or only the own individual address (`c25_refuted`). -/
theorem c25_partial {s s' : State} {a : AssocTable} {g : GroupObjectTable} (ha : s.assoc = some a)
    (ha' : s'.assoc = some a) (hg' : s'.got = some g) {asap : Asap} {f : Msg}
    (h : (encodeMsg (.groupRead asap) s).1 = .ok f) {x : BitVec 16} {as : List (BitVec 16)}
    (hs : a.sendAddresses asap = .ok (x :: as)) (h0 : x ≠ 0) (hx : x ∈ a.at_.gas.map Addr.fs) {vs : List Int}
    (hr : a.Routes ⟨0, x⟩ vs) (hv : vs ≠ []) :
    ∃ m, envelope s m = some f ∧
      (∀ f' pre, Carries s' (indication m) f' pre →
        (decodeMsg f' s').1 = .ok (.list (pre ++ fanOut .read .ind g vs 0))) ∧
      ∀ failed f' pre, Carries s' (confirmation failed m) f' pre →
        (decodeMsg f' s').1 = .ok (.list (pre ++ fanOut .read (.con (statusOf failed)) g vs 0)) := by
  obtain ⟨a', as', e1, e4, e5⟩ := read_frame h
  rw [ha] at e1
  cases e1
  rw [hs] at e4
  cases e4
  obtain ⟨f1, f2, f3, f4, f5⟩ := readTelegram_facts x
  have hdisp : ∀ co, FirstDisplayable (fanOut .read co g vs 0) := by
    intro co
    unfold fanOut
    cases g.filter fun p => p.1.value ∈ vs with
    | nil => exact trivial
    | cons p l =>
      show Displayable _
      unfold Displayable
      simp
  refine ⟨_, e5 x rfl, fun f' pre hc => ?_, fun failed f' pre hc => ?_⟩
  · rw [indication_cemi] at hc
    have := c29_fanout_partial (s := s') (t := readTelegram x) (k := .ind) (info := [])
      (f := f') (pre := pre) ha' hg' f1 f2 h0 hx hr hv (by decide) hc f4
    rw [f5] at this
    exact (this (hdisp _)).1
  · rw [confirmation_cemi] at hc
    have hst := confirmed_status failed (readTelegram x) rfl
    have hco : confOf .con (confirmed failed (readTelegram x)) = .con (statusOf failed) := congrArg Conf.con hst
    have := c29_fanout_partial (s := s') (t := confirmed failed (readTelegram x)) (k := .con) (info := [])
      (f := f') (pre := pre) ha' hg' f1 f2 h0 hx hr hv (by decide) hc f4
    rw [hco, show (confirmed failed (readTelegram x)).value = 0 from f5] at this
    exact (this (hdisp _)).1

/-- C25 is false if the ASAP's first address is the individual address. -/
theorem c25_refuted : ∃ (s : State) (asap : Asap) (m : Msg), s.medium = .usbHid ∧
    (encodeMsg (.groupRead asap) s).1 = .ok (usbReport m) ∧
    (∃ a g vs, s.assoc = some a ∧ s.got = some g ∧ a.sendAddresses asap = .ok [0x1004] ∧ a.Routes ⟨0, 0x1004⟩ vs ∧
      fanOut .read .ind g vs 0 ≠ []) ∧ (decodeMsg (usbReport (confirmation false m)) s).1 = .ok (.list []) := by
  let a := (AssocTable.init exAt []).2
  refine ⟨State.init .usbHid (some a) (some [(⟨0, none⟩, .brightness)]), ⟨0, none⟩,
    cemi 0x11 [] (readTelegram 0x1004), rfl, by decide, ⟨a, _, [0], rfl, rfl, by decide, ?_,
    by decide⟩, by decide⟩
  exact c08_exclusive_partial exAt [] (by decide) (by decide) (by decide) _

example : (decodeMsg (usbReport (indication (cemi 0x11 [] (readTelegram 0x0E89))) ++ []) (exState .usbHid)).1 =
    .ok (.list [.group .read .ind ⟨3, none⟩ ⟨.switch, 0⟩, .group .read .ind ⟨7, none⟩ ⟨.float16, 0⟩]) := by
  obtain ⟨m, hm, h, -⟩ := c25_partial (s := exState .usbHid) (s' := exState .usbHid) (asap := ⟨7, none⟩)
    (f := usbReport (cemi 0x11 [] (readTelegram 0x0E89))) rfl rfl rfl
    (by decide) (x := 0x0E89) (as := [1]) (by decide) (by decide) (by decide) (vs := [7, 3])
    (c08_exclusive_partial exAt exOps (by decide) (by decide) (by decide) _) (by decide)
  have : m = cemi 0x11 [] (readTelegram 0x0E89) := by
    have := congrArg (List.drop 11) (Option.some.inj hm)
    simpa [usbReport, octetsOf] using this
  subst this
  exact h _ _ (.usb [] rfl (by decide))

/-! ## The same, from the calls that built the tables -/

/-- C23–C25 from histories: in every table reached by successful calls that disassociate no shared address, the first
address of an ASAP, unless it is 0 or the individual address, meets the conditions of `c23_partial`, `c24_partial` and
`c25_partial`; the ASAPs on it are the associated ones, the sender among them. -/
theorem c23_history (at_ : AddressTable) (ops : List AssocTable.Op) (hops : ∀ op ∈ ops, op.Proper at_.ind)
    (hok : AssocTable.AllOk (AssocTable.init at_ []).2 ops) (hx : Spec.Exclusive at_.ind.fs (Spec.fresh at_.ind.fs) ops)
    (asap : Asap) :
    let t := (AssocTable.init at_ []).2.afterAll ops
    let now := Spec.follow (Spec.fresh at_.ind.fs) ops
    (asap.value ∈ now.map Prod.fst → t.sendAddresses asap = .ok (Spec.addressesOf now asap.value)) ∧
    ∀ x as, t.sendAddresses asap = .ok (x :: as) → x ≠ at_.ind.fs →
      x ∈ t.at_.gas.map Addr.fs ∧ t.Routes ⟨0, x⟩ (Spec.routed now x) ∧ asap.value ∈ Spec.routed now x := by
  intro t now
  obtain ⟨hk, hb⟩ := c09_reachable at_ ops hops hok hx
  obtain ⟨-, hat, hd, hb0⟩ := init_fresh at_
  obtain ⟨e1, -, e3⟩ := history_ok hb0 (by rw [hat]; exact hops) hok
  rw [hd] at e1
  rw [hat] at e3
  refine ⟨fun hv => ?_, fun x as hs hne => ?_⟩
  · have hv' : asap.value ∈ t.absDict.map Prod.fst := by
      show _ ∈ ((AssocTable.init at_ []).2.afterAll ops).absDict.map Prod.fst
      rw [e1]
      exact hv
    cases hdict : dictGet Asap.eq t.asapAddrs asap with
    | none =>
      exfalso
      unfold AssocTable.absDict at hv'
      simp only [List.map_map, List.mem_map, Function.comp] at hv'
      obtain ⟨p, hp, hpe⟩ := hv'
      have := (dictGet_eq_none asap_keyEq _ _).1 hdict
      exact this p hp hpe
    | some l =>
      obtain ⟨k', hk', -⟩ := dictGet_mem asap_keyEq hdict
      rw [AssocTable.send_resolved hdict fun a ha => known_iff.1 hk _ hk' a ha]
      have := AssocTable.absDict_get t asap
      rw [hdict] at this
      simp only [Option.getD_some] at this
      rw [this]
      show Except.ok (Spec.addressesOf ((AssocTable.init at_ []).2.afterAll ops).absDict _) = _
      rw [e1]
  · obtain ⟨h1, h2, h3⟩ := send_first hk hb hs
    rw [e1] at h2 h3
    refine ⟨h1 ?_, h2, h3⟩
    rw [e3]
    exact hne

example : (0x0E89 : BitVec 16) ∈ ((AssocTable.init exAt []).2.afterAll exOps).at_.gas.map Addr.fs :=
  ((c23_history exAt exOps (by decide) (by decide) (by decide) ⟨7, none⟩).2 0x0E89 [0x0001] (by decide) (by decide)).1

end Knx
