import Verif.Spec.Requests
import Verif.Lemmas.Wire
import Verif.Props.AssocTables

/-! # Lemmas: what the encoder builds, in terms of the specified frames -/

namespace Knx

open Spec

theorem emiId_report (m : Msg) : emiIdEncode m = usbReport m := by
  unfold emiIdEncode protocolIdEncode bodyLengthEncode headerLengthEncode protocolVersionEncode packetInfoEncode
    reportIdEncode usbReport
  have e1 : (([octetOf 1] ++ ([octetOf 3, octetOf 0, octetOf 0] ++ m)).length : Int) - 4 = (m.length : Nat) := by
    simp
    omega
  rw [e1, shortOctets_ofNat]
  rw [octetOf_ofNat]
  simp only [List.cons_append, List.nil_append, List.length_cons, List.length_append, octetsOf_length,
    show octetOf 1 = 1 from rfl, show octetOf 3 = 3 from rfl, show octetOf 0 = 0 from rfl, show octetOf 8 = 8 from rfl,
    show nibblesOctet 1 3 = 0x13 from rfl]
  rw [show 2 + (m.length + 1 + 1 + 1 + 1) + 1 + 1 = m.length + 8 by omega]
  simp only [List.append_assoc, List.cons_append, List.nil_append]

theorem tunneling_request (s : State) (m : Msg) : tunnelingReqEncode s m =
    match s.chan with
    | none => .error .attributeError
    | some c => .ok (tunnelRequest (BitVec.ofNat 8 c) (BitVec.ofNat 8 s.seqLocal) m) := by
  unfold tunnelingReqEncode connectionHeader
  rcases s.chan with _ | c
  · rfl
  · simp only
    unfold ipHeaderEncode tunnelRequest
    rw [shortOctets_ofNat, octetOf_ofNat, octetOf_ofNat, show 4 + 6 + m.length = m.length + 10 by omega]
    simp only [List.append_assoc, List.cons_append, List.nil_append]
    rfl

/-- The last step of encoding, by medium. -/
def finish (k : EncKind) (s : State) (m : Msg) : Except Err Msg :=
  match k with
  | .req =>
    match envelope s m with
    | none => .error .attributeError
    | some f => .ok f
  | .ind => .ok (usbReport m)

/-- The message code of a request or an encoded indication. -/
def encCode : EncKind → Byte
  | .req => 0x11
  | .ind => 0x29

theorem cemiEncode_finish (k : EncKind) (s : State) (m : Msg) :
    cemiEncode k s m = finish k s ([encCode k, 0] ++ m) := by
  cases k with
  | ind =>
    unfold cemiEncode cemiIndEncode finish
    simp only [emiId_report]
    rfl
  | req =>
    unfold cemiEncode cemiReqEncode finish envelope
    simp only
    cases s.medium with
    | usbHid => simp only [emiId_report]; rfl
    | knxnetIp =>
      simp only [tunneling_request]
      cases s.chan <;> rfl
    | tp => rfl

theorem linkEncode_finish (k : EncKind) (s : State) (g : Bool) (m : Msg)
    (h : s.addressType = some (if g then .group else .individual)) :
    linkEncode k s m = finish k s ([encCode k, 0, 0x96, if g then 0xE0 else 0x60, 0, 0] ++ m) := by
  unfold linkEncode
  rw [h]
  simp only [cemiEncode_finish]
  cases g <;> rfl

theorem request_cemi (k : EncKind) (g : Bool) (dest : BitVec 16) (code : Nat) (rest : Msg) :
    cemi (encCode k) [] (request g dest code rest) =
      [encCode k, 0, 0x96, if g then 0xE0 else 0x60, 0, 0] ++ (octetsOf 2 dest.toNat ++
        [BitVec.ofNat 8 (rest.length + 1)] ++ ([BitVec.ofNat 8 (code / 256), BitVec.ofNat 8 code] ++ rest)) := by
  unfold cemi
  rw [octets_eq]
  simp only [request, List.append_assoc, List.cons_append, List.nil_append, List.length_nil]
  congr 1

/-- What `get_addresses` gives while an ASAP is being served. -/
theorem getAddresses_send {s : State} {a : AssocTable} {asap : Asap} (ha : s.assoc = some a)
    (hs : s.asap = some asap) : (s.getAddresses.map fun l => l.map Addr.fs) = a.sendAddresses asap := by
  unfold State.getAddresses State.getTsaps AssocTable.sendAddresses
  rw [ha, hs]
  simp only
  rcases a.getTsaps asap with e | ts
  · rfl
  · simp only
    rcases a.getAddresses ts with e | l <;> rfl

theorem getAddresses_length {a : AssocTable} {ts : List (Option Nat)} {l : List Addr}
    (h : a.getAddresses ts = .ok l) : l.length = ts.length := by
  induction ts generalizing l with
  | nil =>
    simp only [AssocTable.getAddresses] at h
    cases h
    rfl
  | cons t ts ih =>
    cases t with
    | none => simp [AssocTable.getAddresses] at h
    | some n =>
      simp only [AssocTable.getAddresses] at h
      rcases h1 : a.at_.getAddress n with e | x <;> rw [h1] at h <;> simp only at h
      · cases h
      · rcases h2 : a.getAddresses ts with e | y <;> rw [h2] at h <;> simp only at h
        · cases h
        · cases h
          simp [ih h2]

/-- The group layers of the encoder: with a first address the specified telegram is wrapped. -/
theorem tDataGroup_request {k : EncKind} {s : State} {a : AssocTable} {asap : Asap} {p : Nat} (ha : s.assoc = some a)
    (hs : s.asap = some asap) (hp : s.apci = some p) (hp' : p < 256) (ht : s.addressType = some .group) (x : Nat)
    (hx : x < 256) (rest : Msg) :
    tDataGroupEncode k s (BitVec.ofNat 8 x :: rest) =
      match a.sendAddresses asap with
      | .error e => .error e
      | .ok [] => finish k s ([encCode k, 0, 0x96, 0xE0, 0, 0, BitVec.ofNat 8 x] ++ rest)
      | .ok (d :: _) => finish k s (cemi (encCode k) [] (request true d x rest)) := by
  have hsend := getAddresses_send ha hs
  unfold AssocTable.sendAddresses at hsend ⊢
  unfold tDataGroupEncode
  have hts : s.getTsaps = a.getTsaps asap := by
    unfold State.getTsaps
    rw [ha, hs]
  rw [hts]
  rcases h1 : a.getTsaps asap with e | ts
  · rfl
  · simp only
    rw [h1] at hsend
    simp only at hsend
    have hga : s.getAddresses = a.getAddresses ts := by
      unfold State.getAddresses
      rw [hts, h1, ha]
    rcases h2 : a.getAddresses ts with e | l
    · cases ts with
      | nil => simp [AssocTable.getAddresses] at h2
      | cons t ts =>
        simp only [hp]
        unfold nDataGroupEncode
        rw [hga, h2]
    · have hlen := getAddresses_length h2
      cases ts with
      | nil =>
        have : l = [] := List.eq_nil_of_length_eq_zero hlen
        subst this
        simp only [List.map_nil]
        unfold nDataGroupEncode
        rw [hga, h2]
        simp only
        rw [linkEncode_finish k s true _ ht]
        rfl
      | cons t ts =>
        cases l with
        | nil => simp at hlen
        | cons d l =>
          simp only [hp, List.map_cons]
          unfold nDataGroupEncode
          rw [hga, h2]
          simp only
          rw [linkEncode_finish k s true _ ht, request_cemi]
          have e1 : (((([((LData.default.setNsdu .group).setApci p).tpci] ++ BitVec.ofNat 8 x :: rest).length : Nat) : Int) - 1)
              = ((rest.length + 1 : Nat) : Int) := by
            simp
          rw [e1, octetOf_ofNat, shortOctets_ofNat]
          have e2 : ((LData.default.setNsdu .group).setApci (p : Int)).tpci = 0 := by
            show setB 0 2 ((p : Int) / 2 ^ 8) (LData.default.setNsdu .group).tpci = 0
            have : (p : Int) / 2 ^ 8 = 0 := by omega
            rw [this]
            decide
          rw [e2, show x / 256 = 0 by omega]
          rfl

theorem tDataIndividual_request {s : State} {a : AssocTable} {p : Nat} (ha : s.assoc = some a)
    (hp : s.apci = some p) (ht : s.addressType = some .individual) (hp' : p < 1024) (rest : Msg) :
    tDataIndividualEncode s (BitVec.ofNat 8 p :: rest) =
      finish .req s (cemi 0x11 [] (request false a.at_.ind.fs p rest)) := by
  unfold tDataIndividualEncode
  rw [if_pos ht, hp]
  simp only
  unfold nDataIndividualEncode Tables.individualAddress State.tables
  rw [ha]
  simp only
  rw [linkEncode_finish .req s false _ ht]
  have := request_cemi .req false a.at_.ind.fs p rest
  rw [show encCode .req = 0x11 from rfl] at this
  rw [this]
  have e1 : (((([((LData.default.setNsdu .individual).setApci p).tpci] ++ BitVec.ofNat 8 p :: rest).length : Nat) : Int) - 1)
      = ((rest.length + 1 : Nat) : Int) := by
    simp
  rw [e1, octetOf_ofNat, shortOctets_ofNat]
  have e2 : ((LData.default.setNsdu .individual).setApci (p : Int)).tpci = BitVec.ofNat 8 (p / 256) := by
    show setB 0 2 ((p : Int) / 2 ^ 8) (LData.default.setNsdu .individual).tpci = _
    have h4 : p / 256 < 4 := by omega
    have : (p : Int) / 2 ^ 8 = ((p / 256 : Nat) : Int) := by omega
    rw [this]
    generalize p / 256 = q at h4
    have h : ∀ q : Fin 4, setB 0 2 ((q : Nat) : Int) (LData.default.setNsdu .individual).tpci = BitVec.ofNat 8 q := by
      decide
    exact h ⟨q, h4⟩
  rw [e2]
  rfl

/-- The payload of a write: control octet and value. -/
theorem groupWritePayload_eq (c : DptClass) (n : Nat) :
    ∃ x rest, x < 256 ∧ groupWritePayload c n = BitVec.ofNat 8 x :: rest ∧
      ∀ d, request true d x rest = writeTelegram d c n := by
  have hdata : ∀ m : Nat, octetOf ((LData.default.setApci 0x80).setData m).apciFull = BitVec.ofNat 8 (0x80 + m % 64) := by
    intro m
    have hm : m % 64 < 64 := Nat.mod_lt _ (by decide)
    have e : (LData.default.setApci 0x80).setData m = (LData.default.setApci 0x80).setData ((m % 64 : Nat) : Int) := by
      unfold LData.setData setB setField
      rw [trunc_ofNat, trunc_ofNat]
      simp
    rw [e]
    generalize m % 64 = q at hm
    have h : ∀ q : Fin 64, octetOf ((LData.default.setApci 0x80).setData ((q : Nat) : Int)).apciFull =
        BitVec.ofNat 8 (0x80 + q) := by decide
    exact h ⟨q, hm⟩
  have h0 : octetOf ((LData.default.setApci 0x80).setData 0).apciFull = BitVec.ofNat 8 0x80 := by decide
  unfold groupWritePayload writeTelegram
  by_cases hb : c.lessThanAByte = true
  · have hb' : inApci c = true := by revert hb; cases c <;> decide
    simp only [hb, hb', if_true]
    refine ⟨0x80 + n % 64, [], by omega, ?_, fun d => rfl⟩
    rw [hdata]
  · have hb' : ¬ inApci c = true := by revert hb; cases c <;> decide
    simp only [hb, hb', Bool.false_eq_true, if_false]
    refine ⟨0x80, octetsOf (octets c) n, by decide, ?_, fun d => rfl⟩
    simp only [h0]
    have hsz : c.size = octets c := by cases c <;> rfl
    rw [hsz]
    have : octets c = 1 ∨ octets c = 2 ∨ octets c = 4 := by cases c <;> decide
    rcases this with h | h | h <;> rw [h]
    · rw [if_pos rfl, octetOf_ofNat, octetsOf_one]
    · rw [if_neg (by decide), if_pos rfl, shortOctets_ofNat]
      rfl
    · rw [if_neg (by decide), if_neg (by decide), if_pos rfl, longOctets_ofNat]
      rfl

theorem lookup_typeIn (g : GroupObjectTable) (asap : Asap) : g.lookup asap =
    match typeIn g asap.value with
    | none => .error .keyError
    | some c => .ok c := by
  unfold GroupObjectTable.lookup typeIn
  induction g with
  | nil => rfl
  | cons p g ih =>
    obtain ⟨k, c⟩ := p
    simp only [dictGet, List.find?_cons]
    by_cases h : k.value = asap.value
    · have h' : Asap.eq k asap = true := by simp [Asap.eq, h]
      simp [h, h']
    · have h' : Asap.eq k asap = false := by simp [Asap.eq, h]
      simp only [h, h', Bool.false_eq_true, if_false, decide_false]
      exact ih

/-- Group writes of any kind, in terms of the specified telegrams. -/
theorem groupWrite_eq (k : EncKind) {s : State} {a : AssocTable} {g : GroupObjectTable} (ha : s.assoc = some a)
    (hg : s.got = some g) (asap : Asap) (d : Dpt) :
    groupWriteEncode k asap d s =
      (match typeIn g asap.value with
        | none => .error .keyError
        | some c =>
          match a.sendAddresses asap with
          | .error e => .error e
          | .ok [] => finish k s ([encCode k, 0, 0x96, 0xE0, 0, 0] ++ groupWritePayload c d.raw)
          | .ok (x :: _) => finish k s (cemi (encCode k) [] (writeTelegram x c d.raw)),
       { s with asap := some asap, apci := some 0x80, addressType := some .group }) := by
  let s1 : State := { s with asap := some asap, apci := some 0x80, addressType := some .group }
  have hd : s1.getDpt = match typeIn g asap.value with
      | none => .error .keyError
      | some c => .ok c := by
    unfold State.getDpt
    rw [show s1.got = some g from hg]
    exact lookup_typeIn g asap
  unfold groupWriteEncode
  simp only
  rw [show State.getDpt { s with asap := some asap, apci := some 0x80, addressType := some .group } = _ from hd]
  rcases typeIn g asap.value with _ | c
  · rfl
  · simp only
    obtain ⟨x, rest, hx, h1, h2⟩ := groupWritePayload_eq c d.raw
    rw [h1, tDataGroup_request (s := s1) (a := a) (asap := asap) (p := 0x80) ha rfl rfl (by decide) rfl x hx rest]
    rcases a.sendAddresses asap with e | l
    · rfl
    · cases l with
      | nil => rfl
      | cons y l => simp only [h2]; rfl

/-- Group reads, in terms of the specified telegrams. -/
theorem groupRead_eq {s : State} {a : AssocTable} (ha : s.assoc = some a) (asap : Asap) :
    groupReadEncode asap s =
      (match a.sendAddresses asap with
        | .error e => .error e
        | .ok [] => finish .req s [0x11, 0, 0x96, 0xE0, 0, 0, 0]
        | .ok (x :: _) => finish .req s (cemi 0x11 [] (readTelegram x)),
       { s with apci := some 0, asap := some asap, addressType := some .group }) := by
  unfold groupReadEncode
  simp only
  rw [show (LData.default.setApci 0).apci = BitVec.ofNat 8 0 by decide,
    tDataGroup_request (a := a) (asap := asap) (p := 0)
      (s := { s with apci := some 0, asap := some asap, addressType := some .group }) ha rfl rfl (by decide) rfl 0 (by decide) []]
  rcases a.sendAddresses asap with e | l
  · rfl
  · cases l with
    | nil => rfl
    | cons y l => rfl

theorem propHeaderValue_eq (oi pid n si : Int) : propHeaderValue oi pid n si =
    (oi % 256 * 16777216 + pid % 256 * 65536 + n % 16 * 4096 + si % 4096).toNat := by
  unfold propHeaderValue setField
  have t8 : ∀ x : Int, (trunc 8 x : Int) = x % 256 ∧ trunc 8 x < 256 := by
    intro x
    refine ⟨?_, trunc_lt 8 x⟩
    unfold trunc
    norm_num
    omega
  have t4 : (trunc 4 n : Int) = n % 16 ∧ trunc 4 n < 16 := by
    refine ⟨?_, trunc_lt 4 n⟩
    unfold trunc
    norm_num
    omega
  have t12 : (trunc 12 si : Int) = si % 4096 ∧ trunc 12 si < 4096 := by
    refine ⟨?_, trunc_lt 12 si⟩
    unfold trunc
    norm_num
    omega
  obtain ⟨a1, a2⟩ := t8 oi
  obtain ⟨b1, b2⟩ := t8 pid
  obtain ⟨c1, c2⟩ := t4
  obtain ⟨d1, d2⟩ := t12
  rw [← a1, ← b1, ← c1, ← d1]
  generalize trunc 8 oi = A at *
  generalize trunc 8 pid = B at *
  generalize trunc 4 n = C at *
  generalize trunc 12 si = D at *
  have s1 : 0 / 2 ^ (24 + 8) * 2 ^ (24 + 8) + A * 2 ^ 24 + 0 % 2 ^ 24 = A * 16777216 := by norm_num
  rw [s1]
  have step : ∀ (x y off w : Nat), x * 2 ^ (off + w) / 2 ^ (off + w) * 2 ^ (off + w) + y * 2 ^ off +
      x * 2 ^ (off + w) % 2 ^ off = (x * 2 ^ w + y) * 2 ^ off := by
    intro x y off w
    rw [Nat.mul_div_cancel _ (by positivity), pow_add, ← mul_assoc, mul_right_comm, Nat.mul_mod_left]
    ring
  have s2 := step A B 16 8
  rw [show A * 2 ^ (16 + 8) = A * 16777216 by norm_num] at s2
  rw [s2]
  have s3 := step (A * 2 ^ 8 + B) C 12 4
  rw [show 12 + 4 = 16 from rfl] at s3 ⊢
  rw [s3]
  have s4 := step ((A * 2 ^ 8 + B) * 2 ^ 4 + C) D 0 12
  rw [show 0 + 12 = 12 from rfl] at s4 ⊢
  rw [s4, show (((A * 2 ^ 8 + B) * 2 ^ 4 + C) * 2 ^ 12 + D) * 2 ^ 0 = A * 16777216 + B * 65536 + C * 4096 + D by ring]
  exact_mod_cast (Int.toNat_natCast _).symm

theorem propertyTelegram_eq (d : BitVec 16) (p : Nat) (oi pid n si : Int) (data : Msg) :
    request false d p (longOctets (propHeaderValue oi pid n si) ++ data) = propertyTelegram d p oi pid n si data := by
  unfold propertyTelegram
  rw [longOctets_ofNat, propHeaderValue_eq]

/-- Property reads and writes, in terms of the specified telegrams. -/
theorem propertyRead_eq {s : State} {a : AssocTable} (ha : s.assoc = some a) (asap : Asap) (oi pid n si : Int) :
    propertyReadEncode asap oi pid n si s =
      (finish .req s (cemi 0x11 [] (propertyTelegram a.at_.ind.fs 0x3D5 oi pid n si [])),
       { s with asap := some asap, apci := some 0x3D5, addressType := some .individual }) := by
  unfold propertyReadEncode
  simp only
  rw [show octetOf (LData.default.setApci 0x3D5).apciFull = BitVec.ofNat 8 0x3D5 by decide, List.singleton_append,
    tDataIndividual_request (a := a) (p := 0x3D5)
      (s := { s with asap := some asap, apci := some 0x3D5, addressType := some .individual }) ha rfl rfl (by decide), ← propertyTelegram_eq, List.append_nil]
  rfl

theorem propertyWrite_eq {s : State} {a : AssocTable} (ha : s.assoc = some a) (asap : Asap) (oi pid n si : Int)
    (data : List Char) :
    propertyWriteEncode asap oi pid n si data s =
      (match stringToOctets data with
        | .error e => .error e
        | .ok d => finish .req s (cemi 0x11 [] (propertyTelegram a.at_.ind.fs 0x3D7 oi pid n si d)),
       { s with asap := some asap, apci := some 0x3D7, addressType := some .individual }) := by
  unfold propertyWriteEncode
  simp only
  rcases stringToOctets data with e | d
  · rfl
  · simp only
    rw [show octetOf (LData.default.setApci 0x3D7).apciFull = BitVec.ofNat 8 0x3D7 by decide, List.singleton_append,
      List.cons_append, tDataIndividual_request (a := a) (p := 0x3D7)
        (s := { s with asap := some asap, apci := some 0x3D7, addressType := some .individual }) ha rfl rfl (by decide), ← propertyTelegram_eq]
    rfl

end Knx
