import Verif.Props.Encoding
import Verif.Props.Text

/-! # C26: property services -/

namespace Knx

open Spec

/-- `bs` are the octets written by the pairs of digits of a text. -/
def Spec.Writes (data : List Char) (bs : Msg) : Prop :=
  bs.length = data.length / 2 ∧
  ∀ k b, bs[k]? = some b → ∃ c d vh vl, data[2 * k]? = some c ∧ data[2 * k + 1]? = some d ∧
    PyDigit c vh ∧ PyDigit d vl ∧ b.toNat = 16 * vh + vl

theorem propHeader_fields (oi pid n si : Int) :
    propHeader (oi % 256 * 16777216 + pid % 256 * 65536 + n % 16 * 4096 + si % 4096).toNat =
      ⟨(si % 4096).toNat, (n % 16).toNat, (pid % 256).toNat, (oi % 256).toNat⟩ := by
  have h1 : 0 ≤ oi % 256 ∧ oi % 256 < 256 := by omega
  have h2 : 0 ≤ pid % 256 ∧ pid % 256 < 256 := by omega
  have h3 : 0 ≤ n % 16 ∧ n % 16 < 16 := by omega
  have h4 : 0 ≤ si % 4096 ∧ si % 4096 < 4096 := by omega
  generalize oi % 256 = a at *
  generalize pid % 256 = b at *
  generalize n % 16 = c at *
  generalize si % 4096 = d at *
  obtain ⟨a, rfl⟩ := Int.eq_ofNat_of_zero_le h1.1
  obtain ⟨b, rfl⟩ := Int.eq_ofNat_of_zero_le h2.1
  obtain ⟨c, rfl⟩ := Int.eq_ofNat_of_zero_le h3.1
  obtain ⟨d, rfl⟩ := Int.eq_ofNat_of_zero_le h4.1
  have e : ((a : Int) * 16777216 + b * 65536 + c * 4096 + d).toNat = a * 16777216 + b * 65536 + c * 4096 + d := by omega
  rw [e]
  unfold propHeader getField
  simp only [PropHeader.mk.injEq, Int.toNat_natCast]
  refine ⟨?_, ?_, ?_, ?_⟩ <;> norm_num <;> omega

theorem propHeader_lt (oi pid n si : Int) :
    (oi % 256 * 16777216 + pid % 256 * 65536 + n % 16 * 4096 + si % 4096).toNat < 4294967296 := by
  omega

theorem propertyTelegram_facts (x : BitVec 16) (code : Nat) (hc : code < 1024) (oi pid n si : Int) (data : Msg) :
    ¬ (propertyTelegram x code oi pid n si data).IsGroup ∧ (propertyTelegram x code oi pid n si data).IsData ∧
    (propertyTelegram x code oi pid n si data).destination = x ∧
    (propertyTelegram x code oi pid n si data).code = code ∧
    (propertyTelegram x code oi pid n si data).ctrl1 = 0x96 := by
  refine ⟨?_, request_isData hc _, rfl, request_code hc _, rfl⟩
  unfold Telegram.IsGroup
  show ¬ 128 ≤ (0x60 : Byte).toNat
  decide

/-- The service of a property telegram code. -/
def propertyService (svc : Svc) : Nat :=
  match svc with
  | .read => 0x3D5
  | .response => 0x3D6
  | .write => 0x3D7

/-- Decoding the confirmation of a property telegram addressed to the own individual address. -/
theorem property_confirmed {s : State} {a : AssocTable} (ha : s.assoc = some a)
    (hfree : a.at_.ind.fs ∉ a.at_.gas.map Addr.fs) (svc : Svc) (oi pid n si : Int) (data : Msg) (failed : Bool)
    {f : Msg} {pre : List OutMsg}
    (hc : Carries s (confirmation failed (cemi 0x11 []
      (propertyTelegram a.at_.ind.fs (propertyService svc) oi pid n si data))) f pre) :
    (decodeMsg f s).1 = .ok (.list (pre ++ [.property svc (.con (statusOf failed)) ⟨0, none⟩ (oi % 256).toNat
      (pid % 256).toNat (n % 16).toNat (si % 4096).toNat (if svc = .read then none else some data)])) := by
  rw [confirmation_cemi] at hc
  obtain ⟨f1, f2, f3, f4, f5⟩ := propertyTelegram_facts a.at_.ind.fs (propertyService svc)
    (by cases svc <;> decide) oi pid n si data
  generalize htt : propertyTelegram a.at_.ind.fs (propertyService svc) oi pid n si data = tt at *
  have hst := confirmed_status failed tt f5
  have g1 : ¬ (confirmed failed tt).IsGroup := f1
  have g2 : (confirmed failed tt).IsData := f2
  have g3 : (ldataOf (confirmed failed tt)).destination = a.at_.ind.fs := f3
  have g4 : (ldataOf (confirmed failed tt)).apciFull = propertyService svc := (apciFull_ldataOf _).trans f4
  have hpay : payload (confirmed failed tt) = octetsOf 4
      (oi % 256 * 16777216 + pid % 256 * 65536 + n % 16 * 4096 + si % 4096 : Int).toNat ++ data := by
    unfold payload
    rw [show (confirmed failed tt).rest = octetsOf 4 (oi % 256 * 16777216 + pid % 256 * 65536 + n % 16 * 4096 +
      si % 4096 : Int).toNat ++ data by rw [← htt]; rfl, if_neg]
    rw [octetsOf_four]
    simp
  have htsap : s.tables.getTsap a.at_.ind.fs = .ok (some 0) := by
    unfold Tables.getTsap State.tables
    simp only [ha]
    unfold AssocTable.getTsap AddressTable.getTsap
    have hi : AddressTable.index a.at_.gas ⟨0, a.at_.ind.fs⟩ = none := AddressTable.index_none.2 hfree
    rw [hi]
    simp [Addr.eq]
  have hl : lDataDecode .con s.tables (ldataOf (confirmed failed tt)) (payload (confirmed failed tt)) =
      .ok (.list [.property svc (.con (statusOf failed)) ⟨0, none⟩ (oi % 256).toNat
      (pid % 256).toNat (n % 16).toNat (si % 4096).toNat (if svc = .read then none else some data)]) := by
    unfold lDataDecode
    rw [addressType_individual g1]
    simp only
    unfold nDataIndividualDecode
    rw [if_pos ((nsdu_individual g1).2 g2)]
    unfold tDataIndividualDecode
    simp only [g3, htsap, if_true]
    have hserv : propertyServiceDecode svc .con (ldataOf (confirmed failed tt)) (payload (confirmed failed tt)) =
        .ok [.property svc (.con (statusOf failed)) ⟨0, none⟩ (oi % 256).toNat
          (pid % 256).toNat (n % 16).toNat (si % 4096).toNat (if svc = .read then none else some data)] := by
      unfold propertyServiceDecode
      rw [hpay, long_octetsOf (propHeader_lt oi pid n si)]
      simp only [propHeader_fields, conf_ldataOf]
      rw [show confOf .con (confirmed failed tt) = .con (statusOf failed) from congrArg Conf.con hst]
    have hdisp : propertyDispatch .con (ldataOf (confirmed failed tt)) (payload (confirmed failed tt)) =
        propertyServiceDecode svc .con (ldataOf (confirmed failed tt)) (payload (confirmed failed tt)) := by
      unfold propertyDispatch
      rw [g4]
      cases svc <;> rfl
    rw [hdisp, hserv]
  have := carries_list hc ((codeOf_cemi (k := .con) (info := []) (confirmed failed tt) (by decide) s).trans
    (by rw [hl]))
  rw [this]

/-- C26 for writes: the confirmation of the frame built for a property value write carries the four numbers reduced to
their widths and exactly the octets that the data text writes, on both media. On USB the frame limit is the one of
`Carries`. Missing from the full claim: an individual address that is also in the group address table (`c26_refuted`). -/
theorem c26_write_partial {s s' : State} {a : AssocTable} (ha : s.assoc = some a) (ha' : s'.assoc = some a)
    (hfree : a.at_.ind.fs ∉ a.at_.gas.map Addr.fs) {asap : Asap} {oi pid n si : Int} {data : List Char} {f : Msg}
    (h : (encodeMsg (.propertyWrite asap oi pid n si data) s).1 = .ok f) :
    ∃ bs m, Writes data bs ∧ envelope s m = some f ∧ m.length = 15 + data.length / 2 ∧
      ∀ failed f' pre, Carries s' (confirmation failed m) f' pre →
        (decodeMsg f' s').1 = .ok (.list (pre ++ [.property .write (.con (statusOf failed)) ⟨0, none⟩ (oi % 256).toNat
          (pid % 256).toNat (n % 16).toNat (si % 4096).toNat (some bs)])) := by
  change (propertyWriteEncode asap oi pid n si data s).1 = .ok f at h
  rw [propertyWrite_eq ha] at h
  simp only at h
  rcases hd : stringToOctets data with e | bs
  · rw [hd] at h; cases h
  · rw [hd] at h
    have hw := c02_octets data bs hd
    refine ⟨bs, _, hw, finish_ok h, ?_, fun failed f' pre hc => ?_⟩
    · rw [cemi_length, ← hw.1]
      show 11 + 0 + (octetsOf 4 _ ++ bs).length = _
      rw [List.length_append, octetsOf_length]
      omega
    · exact property_confirmed ha' hfree .write oi pid n si bs failed hc

/-- C26 for reads. Missing from the full claim: as for writes. -/
theorem c26_read_partial {s s' : State} {a : AssocTable} (ha : s.assoc = some a) (ha' : s'.assoc = some a)
    (hfree : a.at_.ind.fs ∉ a.at_.gas.map Addr.fs) {asap : Asap} {oi pid n si : Int} {f : Msg}
    (h : (encodeMsg (.propertyRead asap oi pid n si) s).1 = .ok f) :
    ∃ m, envelope s m = some f ∧ m.length = 15 ∧
      ∀ failed f' pre, Carries s' (confirmation failed m) f' pre →
        (decodeMsg f' s').1 = .ok (.list (pre ++ [.property .read (.con (statusOf failed)) ⟨0, none⟩ (oi % 256).toNat
          (pid % 256).toNat (n % 16).toNat (si % 4096).toNat none])) := by
  change (propertyReadEncode asap oi pid n si s).1 = .ok f at h
  rw [propertyRead_eq ha] at h
  refine ⟨_, finish_ok h, ?_, fun failed f' pre hc => ?_⟩
  · rw [cemi_length]
    show 11 + 0 + (octetsOf 4 _ ++ []).length = _
    rw [List.length_append, octetsOf_length]
    rfl
  · exact property_confirmed ha' hfree .read oi pid n si [] failed hc

/-- C26: a property request is encoded whenever the data are digits (hexadecimal ones, or decimal ones of any script) and the medium has a channel. -/
theorem c26_succeeds {s : State} {a : AssocTable} (ha : s.assoc = some a) (hch : s.medium = .knxnetIp → s.chan ≠ none)
    (asap : Asap) (oi pid n si : Int) (data : List Char) (hd : ∀ c ∈ data, IsPyDigit c) :
    (∃ f, (encodeMsg (.propertyRead asap oi pid n si) s).1 = .ok f) ∧
    ∃ f, (encodeMsg (.propertyWrite asap oi pid n si data) s).1 = .ok f := by
  have hfin : ∀ m, ∃ f, finish .req s m = .ok f := by
    intro m
    have : ∃ f, envelope s m = some f := by
      unfold envelope
      cases hm : s.medium with
      | usbHid => exact ⟨_, rfl⟩
      | tp => exact ⟨_, rfl⟩
      | knxnetIp =>
        cases hcc : s.chan with
        | none => exact absurd hcc (hch hm)
        | some c => exact ⟨_, rfl⟩
    obtain ⟨f, hf⟩ := this
    exact ⟨f, finish_envelope hf⟩
  constructor
  · change ∃ f, (propertyReadEncode asap oi pid n si s).1 = .ok f
    rw [propertyRead_eq ha]
    exact hfin _
  · change ∃ f, (propertyWriteEncode asap oi pid n si data s).1 = .ok f
    rw [propertyWrite_eq ha]
    cases hs : stringToOctets data with
    | error e =>
      obtain ⟨-, c, hc, hx⟩ := (c02_error_iff data e).1 hs
      exact absurd (hd c hc) hx
    | ok bs => exact hfin _

/-- C26 is false if the individual address has been associated by value (not as the same object), which puts it into the
group address table: the confirmation is not delivered. -/
theorem c26_refuted : ∃ (at_ : AddressTable) (ops : List AssocTable.Op) (s : State) (asap : Asap) (m : Msg),
    (∀ op ∈ ops, op.Proper at_.ind) ∧ AssocTable.AllOk (AssocTable.init at_ []).2 ops ∧
    s.assoc = some ((AssocTable.init at_ []).2.afterAll ops) ∧ s.medium = .usbHid ∧
    (encodeMsg (.propertyRead asap 0 1 1 1) s).1 = .ok (usbReport m) ∧
    (decodeMsg (usbReport (confirmation false m)) s).1 = .ok (.list []) :=
  ⟨exAt, [.associate ⟨7, none⟩ [⟨9, 0x1004⟩]],
    State.init .usbHid (some ((AssocTable.init exAt []).2.afterAll [.associate ⟨7, none⟩ [⟨9, 0x1004⟩]])) (some []),
    ⟨0, none⟩, cemi 0x11 [] (propertyTelegram 0x1004 0x3D5 0 1 1 1 []), by decide, by decide, rfl, rfl, by decide,
    by decide⟩

theorem associateAdds_free (as : List Addr) (t : AssocTable) (h : t.at_.ind.fs ∉ t.at_.gas.map Addr.fs)
    (has : ∀ a ∈ as, a.fs = t.at_.ind.fs → a.oid = t.at_.ind.oid) :
    t.at_.ind.fs ∉ (Py.forEach as AssocTable.associateAdd t).2.at_.gas.map Addr.fs := by
  induction as generalizing t with
  | nil => exact h
  | cons a as ih =>
    simp only [Py.forEach, Py.bind]
    rcases AssocTable.associateAdd_cases a t with ⟨e, -⟩ | ⟨hm, ho, hl, e⟩ | ⟨-, -, -, e⟩
    · rw [e]
      exact ih t h fun x hx => has x (List.mem_cons_of_mem _ hx)
    · rw [e]
      refine ih { t with at_ := { t.at_ with gas := AddressTable.sort (t.at_.gas ++ [a]) } } ?_
        fun x hx => has x (List.mem_cons_of_mem _ hx)
      intro hmem
      have := (AddressTable.sort_fs_perm _).mem_iff.1 hmem
      simp only [List.map_append, List.map_cons, List.map_nil, List.mem_append, List.mem_singleton] at this
      rcases this with h' | h'
      · exact h h'
      · exact ho (has a List.mem_cons_self h'.symm)
    · rw [e]
      exact h

theorem disassociateOne_sub (asap : Asap) (a : Addr) (t : AssocTable) :
    ∀ x ∈ (AssocTable.disassociateOne asap a t).2.at_.gas.map Addr.fs, x ∈ t.at_.gas.map Addr.fs := by
  unfold AssocTable.disassociateOne
  simp only [Py.bind]
  have key : ∀ (t1 : AssocTable), (∀ x ∈ t1.at_.gas.map Addr.fs, x ∈ t.at_.gas.map Addr.fs) →
      ∀ x ∈ (match dictGet Asap.eq t1.asapAddrs asap with
        | none => ((.error .keyError, t1) : Except Err Unit × AssocTable)
        | some l =>
          match AddressTable.removeFirst l a with
          | none => (.error .valueError, t1)
          | some l' => (.ok (), { t1 with asapAddrs := dictSet Asap.eq t1.asapAddrs asap l' })).2.at_.gas.map Addr.fs,
        x ∈ t.at_.gas.map Addr.fs := by
    intro t1 h1
    cases dictGet Asap.eq t1.asapAddrs asap with
    | none => exact h1
    | some l =>
      simp only
      cases AddressTable.removeFirst l a <;> exact h1
  by_cases hb : (!(a.eq t.ind)) = true
  · simp only [hb, if_true]
    unfold AssocTable.onAddressTable
    rcases AddressTable.remove_cases a t.at_ with ⟨e, -⟩ | ⟨l, e, hr, hm⟩
    · rw [e]
      exact fun x hx => hx
    · rw [e]
      refine key { t with at_ := { t.at_ with gas := AddressTable.sort l } } ?_
      intro x hx
      obtain ⟨h1, -, -⟩ := AddressTable.removeFirst_some hr
      have := (AddressTable.sort_fs_perm l).mem_iff.1 hx
      rw [h1] at this
      exact List.mem_of_mem_erase this
  · simp only [hb, if_false, Bool.false_eq_true]
    exact key t fun x hx => hx

theorem disassociates_sub (asap : Asap) (as : List Addr) (t : AssocTable) :
    ∀ x ∈ (Py.forEach as (AssocTable.disassociateOne asap) t).2.at_.gas.map Addr.fs, x ∈ t.at_.gas.map Addr.fs := by
  induction as generalizing t with
  | nil => exact fun x hx => hx
  | cons a as ih =>
    have h := disassociateOne_sub asap a t
    simp only [Py.forEach, Py.bind]
    rcases hx : AssocTable.disassociateOne asap a t with ⟨r, t'⟩
    rw [hx] at h
    cases r with
    | error e => exact h
    | ok u => exact fun x hx => h x (ih t' x hx)

/-- C26 from histories: the individual address stays out of the group address table if it is associated only as the same
object, whether calls succeed or not. -/
theorem c26_history (at_ : AddressTable) (hfree : at_.ind.fs ∉ at_.gas.map Addr.fs) (ops : List AssocTable.Op)
    (hops : ∀ op ∈ ops, (∃ asap as, op = .associate asap as ∧ ∀ a ∈ as, a.fs = at_.ind.fs → a.oid = at_.ind.oid) ∨
      ∃ asap as, op = .disassociate asap as) :
    let t := (AssocTable.init at_ []).2.afterAll ops
    t.at_.ind.fs ∉ t.at_.gas.map Addr.fs := by
  suffices ∀ t : AssocTable, t.at_.ind = at_.ind → t.at_.ind.fs ∉ t.at_.gas.map Addr.fs →
      (t.afterAll ops).at_.ind.fs ∉ (t.afterAll ops).at_.gas.map Addr.fs by
    have hi := init_fresh at_
    refine this _ (by rw [hi.2.1]) (by rw [hi.2.1]; exact hfree)
  induction ops with
  | nil => exact fun t _ h => h
  | cons op ops ih =>
    intro t hind h
    simp only [AssocTable.afterAll, List.foldl_cons]
    have ih := ih (fun o ho => hops o (List.mem_cons_of_mem _ ho)) (AssocTable.perform op t).2
    simp only [AssocTable.afterAll] at ih
    rcases hops op List.mem_cons_self with ⟨asap, as, rfl, has⟩ | ⟨asap, as, rfl⟩
    · have h1 := associateAdds_free as t h (by rw [hind]; exact has)
      have h2 := (AssocTable.associateAdds_frame as t).2.2.1
      simp only [AssocTable.perform] at ih ⊢
      rw [AssocTable.associate_eq] at ih ⊢
      rcases hf : Py.forEach as AssocTable.associateAdd t with ⟨r, t'⟩
      rw [hf] at h1 h2 ih
      rw [← h2] at h1
      cases r with
      | ok u => exact ih (h2.trans hind) h1
      | error e => exact ih (h2.trans hind) h1
    · have h1 := disassociates_sub asap as t
      have h2 := (AssocTable.disassociates_frame asap as t).1
      simp only [AssocTable.perform] at ih ⊢
      rw [AssocTable.disassociate_eq] at ih ⊢
      rcases hf : Py.forEach as (AssocTable.disassociateOne asap) t with ⟨r, t'⟩
      rw [hf] at h1 h2 ih
      have h3 : t'.at_.ind.fs ∉ t'.at_.gas.map Addr.fs := fun hm => h (h2 ▸ h1 _ hm)
      cases r with
      | ok u => exact ih (h2.trans hind) h3
      | error e => exact ih (h2.trans hind) h3

example : ((AssocTable.init exAt []).2.afterAll exOps).at_.ind.fs ∉
    ((AssocTable.init exAt []).2.afterAll exOps).at_.gas.map Addr.fs :=
  c26_history exAt (by decide) exOps (by
    intro op hop
    simp only [exOps, List.mem_cons, List.not_mem_nil, or_false] at hop
    rcases hop with rfl | rfl | rfl | rfl
    · exact .inl ⟨_, _, rfl, by decide⟩
    · exact .inl ⟨_, _, rfl, by decide⟩
    · exact .inr ⟨_, _, rfl⟩
    · exact .inl ⟨_, _, rfl, by decide⟩)

example : (decodeMsg (tunnelRequest 9 255 (confirmation true
      (cemi 0x11 [] (propertyTelegram 0x1004 0x3D7 (-1) 263 17 4097 [0xBE, 0x0F])))) (exState .knxnetIp)).1 =
    .ok (.list [.tunnelingReq 255 .noError, .property .write (.con .ko) ⟨0, none⟩ 255 7 1 1 (some [0xBE, 0x0F])]) := by
  obtain ⟨bs, m, hb, hm, -, h⟩ := c26_write_partial (s := exState .usbHid) (s' := exState .knxnetIp) rfl rfl (by decide)
    (asap := ⟨0, none⟩) (oi := -1) (pid := 263) (n := 17) (si := 4097) (data := "Be0F".toList)
    (f := usbReport (cemi 0x11 [] (propertyTelegram 0x1004 0x3D7 (-1) 263 17 4097 [0xBE, 0x0F]))) (by decide)
  have : m = cemi 0x11 [] (propertyTelegram 0x1004 0x3D7 (-1) 263 17 4097 [0xBE, 0x0F]) := by
    have := congrArg (List.drop 11) (Option.some.inj hm)
    simpa [usbReport, octetsOf] using this
  subst this
  have h := h true _ _ (.ip 9 255 rfl (by decide))
  have hbs : bs = [0xBE, 0x0F] := by
    have h' : (decodeMsg (tunnelRequest 9 255 (confirmation true
      (cemi 0x11 [] (propertyTelegram 0x1004 0x3D7 (-1) 263 17 4097 [0xBE, 0x0F])))) (exState .knxnetIp)).1 =
      .ok (.list [.tunnelingReq 255 .noError, .property .write (.con .ko) ⟨0, none⟩ 255 7 1 1 (some [0xBE, 0x0F])]) := by
      decide
    rw [h'] at h
    simp at h
    exact h.2.symm
  subst hbs
  exact h

example : ∃ f, (encodeMsg (.propertyWrite ⟨0, none⟩ 0 1 1 1 "00ff".toList) (exState .usbHid)).1 = .ok f :=
  (c26_succeeds (s := exState .usbHid) rfl (by decide) ⟨0, none⟩ 0 1 1 1 "00ff".toList (by decide)).2

end Knx
