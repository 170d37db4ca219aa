import Verif.Model.Iterables
import Verif.Props.TableMachine

/-! # C85: which iterables `associate` and `disassociate` take -/

namespace Knx

namespace Spec

/-- The first, the third, the fifth element and so on. -/
def everySecond {α : Type} : List α → List α
  | [] => []
  | [a] => [a]
  | a :: _ :: l => a :: everySecond l

end Spec

open AssocTable AddressTable Spec

theorem mem_of_getElem {l : List Addr} {i : Nat} {a : Addr} (h : l[i]? = some a) : AddressTable.mem l a = true := by
  unfold AddressTable.mem
  rw [List.any_eq_true]
  exact ⟨a, List.mem_of_getElem? h, (AddressTable.eq_iff a a).2 rfl⟩

theorem forLive_add (t : AssocTable) (fuel i : Nat) : forLive associateAdd fuel i t = (.ok (), t) := by
  induction fuel generalizing i with
  | zero => rfl
  | succ n ih =>
    unfold forLive
    cases h : t.at_.gas[i]? with
    | none => rfl
    | some a =>
      have : associateAdd a t = (.ok (), t) := by
        unfold associateAdd
        rw [mem_of_getElem h]
        rfl
      simp only [Py.bind, this]
      exact ih (i + 1)

theorem forEach_add_known (t : AssocTable) (l : List Addr) (h : ∀ a ∈ l, a ∈ t.at_.gas) :
    Py.forEach l associateAdd t = (.ok (), t) := by
  induction l with
  | nil => rfl
  | cons a l ih =>
    unfold Py.forEach
    have : associateAdd a t = (.ok (), t) := by
      unfold associateAdd
      have hm : AddressTable.mem t.at_.gas a = true :=
        List.any_eq_true.2 ⟨a, h a (by simp), (AddressTable.eq_iff a a).2 rfl⟩
      rw [hm]
      rfl
    simp only [Py.bind, this]
    exact ih fun b hb => h b (by simp [hb])

/-- C85: a list, and the list of the address table itself, are associated address by address; a list and an iterator are
disassociated address by address. -/
theorem c85_partial (asap : Asap) (it : Iter) (t : AssocTable) :
    ((∀ l, it ≠ .once l) → associateFrom asap it t = associate asap (it.elements t) t) ∧
      (it ≠ .live → disassociateFrom asap it t = disassociate asap (it.elements t) t) := by
  cases it with
  | list l => exact ⟨fun _ => rfl, fun _ => rfl⟩
  | once l => exact ⟨fun h => absurd rfl (h l), fun _ => rfl⟩
  | live =>
    refine ⟨fun _ => ?_, fun h => absurd rfl h⟩
    rw [associate_eq]
    simp only [Iter.elements, associateFrom, Py.bind, associateLoop, forLive_add,
      forEach_add_known t t.at_.gas (fun _ h => h), Py.modify, secondPass]

/-! ## Iterators -/

theorem agrees_once {t : AssocTable} {ind : Addr} {max : Nat} {s : TableState} (h : Agrees t ind max s)
    (asap : Asap) (as : List Addr)
    (hc : newOnes ind s.known as = [] ∨ s.known.length + (newOnes ind s.known as).length ≤ max) :
    (associateFrom asap (.once as) t).1 = .ok () ∧
      Agrees (associateFrom asap (.once as) t).2 ind max
        ({ s with known := s.known ++ newOnes ind s.known as,
                  assoc := Spec.associate s.assoc asap.value [] } : TableState).renewed := by
  have := agrees_adds as h
  simp only [if_pos hc] at this
  rcases hf : Py.forEach as associateAdd t with ⟨r, t'⟩
  rw [hf] at this
  obtain ⟨h1, h2⟩ := this
  simp only at h1 h2
  subst h1
  have he : associateFrom asap (.once as) t = (.ok (), (associateAppend asap [] t').rebuild) := by
    simp only [associateFrom, Py.bind, associateLoop, hf, Py.modify, secondPass]
  rw [he]
  refine ⟨rfl, ?_⟩
  apply agrees_renewed (t := associateAppend asap [] t')
  obtain ⟨at0, d0, hb, g1, g2⟩ := h2.seen
  refine ⟨h2.hind, h2.hmax, h2.sorted, h2.known, ?_, at0, d0, ⟨hb.index, hb.ind, hb.sorted⟩, g1, g2⟩
  rw [absDict_append, h2.assoc]
  rfl

theorem routed_associate_nil (d : Assoc) (v : Int) (x : BitVec 16) :
    routed (Spec.associate d v []) x = routed d x := by
  induction d with
  | nil => simp [Spec.associate, routed]
  | cons p d ih =>
    obtain ⟨w, l⟩ := p
    simp only [Spec.associate]
    split_ifs with h
    · simp [routed]
    · simp only [routed, List.flatMap_cons] at ih ⊢
      rw [ih]

theorem addressesOf_associate_nil (d : Assoc) (v w : Int) :
    addressesOf (Spec.associate d v []) w = addressesOf d w := by
  induction d with
  | nil => simp [Spec.associate, addressesOf]
  | cons p d ih =>
    obtain ⟨u, l⟩ := p
    simp only [Spec.associate]
    split_ifs with h
    · simp [addressesOf]
    · simp only [addressesOf, ih]

theorem routed_associate_mem (d : Assoc) (v : Int) (xs : List (BitVec 16)) (x : BitVec 16) (h : x ∈ xs) :
    v ∈ routed (Spec.associate d v xs) x := by
  induction d with
  | nil =>
    simp only [Spec.associate, routed, List.flatMap_cons, List.flatMap_nil, List.append_nil, List.mem_replicate, and_true]
    exact fun h0 => (List.count_eq_zero.1 h0) h
  | cons p d ih =>
    obtain ⟨w, l⟩ := p
    simp only [Spec.associate]
    split_ifs with hw
    · subst hw
      simp only [routed, List.flatMap_cons, List.mem_append, List.mem_replicate, and_true, List.count_append]
      left
      have := List.count_pos_iff.2 h
      omega
    · simp only [routed, List.flatMap_cons, List.mem_append] at ih ⊢
      exact Or.inr ih

theorem newOnes_known {ind : Addr} {k : List (BitVec 16)} {as : List Addr} {a : Addr} (ha : a ∈ as)
    (hp : a.oid = ind.oid → a.fs = ind.fs) : a.fs ∈ k ++ newOnes ind k as ∨ a.fs = ind.fs := by
  by_cases ho : a.oid = ind.oid
  · exact Or.inr (hp ho)
  · left
    by_cases hk : a.fs ∈ k
    · exact List.mem_append_left _ hk
    · apply List.mem_append_right
      unfold newOnes
      rw [List.mem_eraseDups, List.mem_filter, List.mem_map]
      exact ⟨⟨a, List.mem_filter.2 ⟨ha, by simpa using ho⟩, rfl⟩, by simpa using hk⟩

/-- C85 is false of every iterator: whenever `associate` succeeds with a list, it also succeeds with an iterator over the
same addresses, and makes the addresses known, but associates none of them. Each address that was not associated before
is then still for nobody (`KeyError`), where the list would have made it the ASAP's. -/
theorem c85_iterator_refuted (t : AssocTable) (hs : t.at_.gas.Pairwise fun a b => a.fs.toNat ≤ b.fs.toNat)
    (hb : t.rebuild = t) (asap : Asap) (as : List Addr) (hp : ∀ a ∈ as, a.oid = t.at_.ind.oid → a.fs = t.at_.ind.fs)
    (h : (associate asap as t).1 = .ok ()) :
    let t' := (associateFrom asap (.once as) t).2
    (associateFrom asap (.once as) t).1 = .ok () ∧
      (∀ a ∈ as, t'.getTsap a ≠ none) ∧
      (∀ v, addressesOf t'.absDict v = addressesOf t.absDict v) ∧
      ∀ a ∈ as, routed t.absDict a.fs = [] → t'.getAsapsFromAddress a = .error .keyError ∧
        ∃ r, (associate asap as t).2.getAsapsFromAddress a = .ok r ∧ asap.value ∈ r.map Asap.value := by
  intro t'
  have hcur := agrees_current hs hb
  have hroom := (c83_associate t hs hb asap as).1 h
  have hc : newOnes t.at_.ind (currentState t).known as = [] ∨
      (currentState t).known.length + (newOnes t.at_.ind (currentState t).known as).length ≤ t.at_.maxSize := by
    simpa [currentState] using hroom
  obtain ⟨h1, h2⟩ := agrees_once hcur asap as hc
  have hknown : ∀ a ∈ as, a.fs ∈ (currentState t).known ++ newOnes t.at_.ind (currentState t).known as ∨
      a.fs = t.at_.ind.fs := fun a ha => newOnes_known ha (hp a ha)
  refine ⟨h1, fun a ha hn => ?_, fun v => ?_, fun a ha hr => ?_⟩
  · have : t'.at_.getTsap a = place t.at_.ind.fs _ a.fs := h2.hind ▸ getTsap_place h2.sorted h2.known a
    rw [show t'.getTsap a = t'.at_.getTsap a from rfl, this, place_none] at hn
    exact (hknown a ha).elim hn.1 hn.2
  · rw [h2.assoc]
    exact addressesOf_associate_nil _ _ _
  · have hl := agrees_routes h2 a
    unfold TableState.renewed at hl
    rw [listed_current, if_pos (hknown a ha), routed_associate_nil] at hl
    have hr' : routed (currentState t).assoc a.fs = [] := hr
    rw [hr'] at hl
    refine ⟨by simpa [AssocTable.Routes] using hl, ?_⟩
    have hl2 := agrees_routes (agrees_associate hcur asap as).2 a
    unfold TableState.associate at hl2
    simp only [if_pos hc] at hl2
    unfold TableState.renewed at hl2
    rw [listed_current, if_pos (hknown a ha)] at hl2
    have hm := routed_associate_mem (currentState t).assoc asap.value (as.map Addr.fs) a.fs (List.mem_map.2 ⟨a, ha, rfl⟩)
    unfold AssocTable.Routes at hl2
    rw [if_neg (List.ne_nil_of_mem hm)] at hl2
    obtain ⟨r, hr1, hr2⟩ := hl2
    exact ⟨r, hr1, by rw [hr2]; exact hm⟩

/-- One ASAP, one address, room for more. -/
def exIterTable : AssocTable where
  at_ := ⟨9, ⟨0, 0x1004⟩, [⟨1, 0x0010⟩]⟩
  asapAddrs := [(⟨0, none⟩, [⟨0, 0x1004⟩]), (⟨1, none⟩, [⟨1, 0x0010⟩])]
  tsapAsaps := [(some 0, [⟨0, none⟩]), (some 1, [⟨1, none⟩])]

example : (associateFrom ⟨2, none⟩ (.once [⟨2, 0x0020⟩, ⟨3, 0x0030⟩]) exIterTable).2.getAsapsFromAddress ⟨4, 0x0020⟩ =
    .error .keyError :=
  ((c85_iterator_refuted exIterTable (by decide +kernel) (by decide +kernel) ⟨2, none⟩ [⟨4, 0x0020⟩, ⟨3, 0x0030⟩]
    (by simp [exIterTable]) (by decide +kernel)).2.2.2 ⟨4, 0x0020⟩ (by simp) (by decide +kernel)).1

/-! ## The list of the address table itself -/

theorem insert_below {a : Addr} {l : List Addr} (h : ∀ b ∈ l, a.fs.toNat ≤ b.fs.toNat) :
    AddressTable.insert a l = a :: l := by
  cases l with
  | nil => rfl
  | cons b l =>
    unfold AddressTable.insert
    rw [if_pos (h b (by simp))]

theorem sort_sorted_eq {l : List Addr} (h : l.Pairwise fun a b => a.fs.toNat ≤ b.fs.toNat) : AddressTable.sort l = l := by
  induction l with
  | nil => rfl
  | cons a l ih =>
    rw [List.pairwise_cons] at h
    unfold AddressTable.sort
    rw [ih h.2, insert_below h.1]

theorem removeFirst_middle {k l : List Addr} {a : Addr} (h : ∀ b ∈ k, b.fs ≠ a.fs) :
    AddressTable.removeFirst (k ++ a :: l) a = some (k ++ l) := by
  induction k with
  | nil =>
    simp only [List.nil_append, AddressTable.removeFirst]
    rw [if_pos ((AddressTable.eq_iff a a).2 rfl)]
  | cons b k ih =>
    simp only [List.cons_append, AddressTable.removeFirst]
    rw [if_neg fun e => h b (by simp) ((AddressTable.eq_iff _ _).1 e), ih fun c hc => h c (by simp [hc])]
    rfl

theorem takeFrom_at (asap : Asap) (a : Addr) (t : AssocTable) : (takeFrom asap a t).2.at_ = t.at_ := by
  unfold takeFrom
  cases dictGet Asap.eq t.asapAddrs asap with
  | none => rfl
  | some l =>
    simp only
    cases AddressTable.removeFirst l a <;> rfl

/-- The loop skips what follows on each address removed. -/
theorem forLive_skip (asap : Asap) (l k : List Addr) (fuel : Nat) (hf : l.length ≤ fuel) (t : AssocTable)
    (hg : t.at_.gas = k ++ l) (hs : (k ++ l).Pairwise fun a b => a.fs.toNat < b.fs.toNat)
    (hi : t.at_.ind.fs ∉ (k ++ l).map Addr.fs) :
    forLive (disassociateOne asap) fuel k.length t = Py.forEach (everySecond l) (disassociateOne asap) t := by
  induction hn : l.length using Nat.strongRecOn generalizing l k fuel t with
  | _ n ih =>
    cases l with
    | nil =>
      cases fuel with
      | zero => rfl
      | succ m =>
        unfold forLive
        have : t.at_.gas[k.length]? = none := by
          rw [hg]
          simp
        rw [this]
        rfl
    | cons a l =>
      cases fuel with
      | zero => simp at hf
      | succ m =>
        have hget : t.at_.gas[k.length]? = some a := by
          rw [hg]
          simp
        have hsec : Py.forEach (everySecond (a :: l)) (disassociateOne asap) t =
            Py.bind (disassociateOne asap a) (fun _ => Py.forEach (everySecond l.tail) (disassociateOne asap)) t := by
          cases l with
          | nil => rfl
          | cons b l => rfl
        rw [hsec]
        unfold forLive
        rw [hget]
        simp only
        have hall := List.pairwise_append.1 hs
        have hkl : (k ++ l).Pairwise fun a b => a.fs.toNat < b.fs.toNat :=
          hs.sublist (List.Sublist.append_left (List.sublist_cons_self a l) k)
        have hle : (k ++ l).Pairwise fun a b => a.fs.toNat ≤ b.fs.toNat := hkl.imp fun h => le_of_lt h
        have hne : ∀ b ∈ k, b.fs ≠ a.fs := by
          intro b hb e
          have := hall.2.2 b hb a (by simp)
          rw [e] at this
          omega
        have hai : ¬ a.eq t.ind = true := by
          intro e
          apply hi
          have : a.fs = t.at_.ind.fs := (AddressTable.eq_iff _ _).1 e
          rw [← this]
          simp
        have hforget : forget a t = (.ok (), { t with at_ := { t.at_ with gas := k ++ l } }) := by
          unfold forget
          rw [if_pos (by simpa using hai)]
          unfold onAddressTable AddressTable.remove
          rw [hg, removeFirst_middle hne]
          simp only [sort_sorted_eq hle]
        unfold Py.bind
        rw [disassociateOne_eq]
        unfold Py.bind
        rw [hforget]
        simp only
        have hat := takeFrom_at asap a { t with at_ := { t.at_ with gas := k ++ l } }
        rcases htf : takeFrom asap a { t with at_ := { t.at_ with gas := k ++ l } } with ⟨r, t'⟩
        rw [htf] at hat
        simp only at hat
        cases r with
        | error e => rfl
        | ok u =>
          simp only
          cases l with
          | nil =>
            have hlen : t'.at_.gas[k.length + 1]? = none := by
              rw [hat]
              simp
            cases m with
            | zero => rfl
            | succ m =>
              unfold forLive
              rw [hlen]
              rfl
          | cons b l =>
            have := ih l.length (by simp at hn; omega) l (k ++ [b]) m (by simp at hf; omega) t' (by rw [hat]; simp)
              (by simpa using hkl) (by
                rw [hat]
                intro hc
                apply hi
                simp only [List.append_assoc, List.map_append, List.map_cons, List.map_nil, List.mem_append,
                  List.mem_cons, List.not_mem_nil, or_false] at hc ⊢
                tauto) rfl
            simp only [List.length_append, List.length_cons, List.length_nil, Nat.zero_add] at this
            exact this

/-- C85, exactly what happens with the list of the address table: only every second address is disassociated. -/
theorem c85_live (asap : Asap) (t : AssocTable) (hs : t.at_.gas.Pairwise fun a b => a.fs.toNat < b.fs.toNat)
    (hi : t.at_.ind.fs ∉ t.at_.gas.map Addr.fs) :
    disassociateFrom asap .live t = disassociate asap (everySecond t.at_.gas) t := by
  have := forLive_skip asap t.at_.gas [] t.at_.gas.length le_rfl t rfl hs hi
  unfold disassociateFrom AssocTable.disassociate Py.bind
  simp only [List.length_nil] at this
  simp only [this]

theorem disassociate_step (d : Assoc) (v : Int) (x : BitVec 16) (xs : List (BitVec 16)) :
    Spec.disassociate (Spec.disassociate d v [x]) v xs = Spec.disassociate d v (x :: xs) := by
  induction d with
  | nil => rfl
  | cons p d ih =>
    obtain ⟨w, l⟩ := p
    simp only [Spec.disassociate]
    split_ifs with h
    · simp [Spec.disassociate, h]
    · simp [Spec.disassociate, h, ih]

theorem disassociate_none (d : Assoc) (v : Int) : Spec.disassociate d v [] = d := by
  induction d with
  | nil => rfl
  | cons p d ih =>
    obtain ⟨w, l⟩ := p
    simp only [Spec.disassociate, ih]
    split_ifs <;> rfl

/-- What is left when every address could be given up. -/
theorem giveUp_left (ind : BitVec 16) (v : Int) (xs : List (BitVec 16)) (hi : ind ∉ xs) (s : TableState)
    (h : (s.giveUp ind v xs).1 = .ok ()) :
    (s.giveUp ind v xs).2.known = xs.foldl List.erase s.known ∧
      (s.giveUp ind v xs).2.assoc = Spec.disassociate s.assoc v xs := by
  induction xs generalizing s with
  | nil => exact ⟨rfl, (disassociate_none _ _).symm⟩
  | cons x xs ih =>
    have hx : x ≠ ind := fun e => hi (by simp [e])
    unfold TableState.giveUp at h ⊢
    simp only [if_neg hx] at h ⊢
    split_ifs at h ⊢ with h1 h2 h3
    have := ih (fun hc => hi (List.mem_cons_of_mem _ hc)) _ h
    simp only [disassociate_step] at this
    exact this

theorem count_foldl_erase (xs l : List (BitVec 16)) (x : BitVec 16) :
    (xs.foldl List.erase l).count x = l.count x - xs.count x := by
  induction xs generalizing l with
  | nil => simp
  | cons y xs ih =>
    rw [List.foldl_cons, ih, List.count_erase, List.count_cons]
    omega

theorem addressesOf_less (d : Assoc) (v : Int) (xs : List (BitVec 16)) :
    addressesOf (Spec.disassociate d v xs) v = xs.foldl List.erase (addressesOf d v) := by
  induction xs generalizing d with
  | nil => rw [disassociate_none]; rfl
  | cons x xs ih => rw [← disassociate_step, ih, addressesOf_disassociate]; rfl

theorem routed_of_addressesOf (d : Assoc) (v : Int) (x : BitVec 16) (h : x ∈ addressesOf d v) : v ∈ routed d x := by
  induction d with
  | nil => simp [addressesOf] at h
  | cons p d ih =>
    obtain ⟨w, l⟩ := p
    simp only [routed, List.flatMap_cons, List.mem_append] at ih ⊢
    simp only [addressesOf] at h
    split_ifs at h with hw
    · left
      subst hw
      exact List.mem_replicate.2 ⟨fun h0 => (List.count_eq_zero.1 h0) h, rfl⟩
    · exact Or.inr (ih h)

theorem everySecond_sublist {α : Type} (l : List α) : (everySecond l).Sublist l := by
  induction hn : l.length using Nat.strongRecOn generalizing l with
  | _ n ih =>
    match l with
    | [] => exact List.Sublist.slnil
    | [a] => exact List.Sublist.refl _
    | a :: b :: l => exact ((ih l.length (by simp at hn; omega) l rfl).cons b).cons_cons a

theorem everySecond_even {α : Type} (l : List α) (i : Nat) : (everySecond l)[i]? = l[2 * i]? := by
  induction i generalizing l with
  | zero =>
    match l with
    | [] => rfl
    | [a] => rfl
    | a :: b :: l => rfl
  | succ i ih =>
    match l with
    | [] => rfl
    | [a] => simp [everySecond, Nat.mul_add]
    | a :: b :: l => simpa [everySecond, Nat.mul_add] using ih l

/-- The addresses with an odd index are not among every second. -/
theorem everySecond_odd {l : List Addr} (hs : l.Pairwise fun a b => a.fs.toNat < b.fs.toNat) (i : Nat) (a : Addr)
    (h : l[2 * i + 1]? = some a) : a.fs ∉ (everySecond l).map Addr.fs := by
  intro hm
  obtain ⟨b, hb, hab⟩ := List.mem_map.1 hm
  obtain ⟨j, hj⟩ := List.mem_iff_getElem?.1 hb
  rw [everySecond_even] at hj
  obtain ⟨h1, h2⟩ := List.getElem?_eq_some_iff.1 h
  obtain ⟨h3, h4⟩ := List.getElem?_eq_some_iff.1 hj
  rw [List.pairwise_iff_getElem] at hs
  rcases Nat.lt_or_ge (2 * j) (2 * i + 1) with hlt | hge
  · have := hs _ _ h3 h1 hlt
    rw [h2, h4, hab] at this
    omega
  · have := hs _ _ h1 h3 (by omega)
    rw [h2, h4, hab] at this
    omega

/-- The state after a call of `disassociate` that succeeds, own address not included. -/
theorem disassociate_left (asap : Asap) (as : List Addr) (t : AssocTable)
    (hs : t.at_.gas.Pairwise fun a b => a.fs.toNat ≤ b.fs.toNat) (hb : t.rebuild = t)
    (hi : t.at_.ind.fs ∉ as.map Addr.fs) (h : (AssocTable.disassociate asap as t).1 = .ok ()) :
    ∃ s : TableState, Agrees (AssocTable.disassociate asap as t).2 t.at_.ind t.at_.maxSize s.renewed ∧
      s.known = (as.map Addr.fs).foldl List.erase (t.at_.gas.map Addr.fs) ∧
      s.assoc = Spec.disassociate t.absDict asap.value (as.map Addr.fs) := by
  have hp := agrees_perform (agrees_current hs hb) (.disassociate asap as)
  simp only [perform, TableState.call, TableState.disassociate] at hp
  rw [h] at hp
  have hl := giveUp_left t.at_.ind.fs asap.value (as.map Addr.fs) hi (currentState t)
  rcases hg : (currentState t).giveUp t.at_.ind.fs asap.value (as.map Addr.fs) with ⟨r, s⟩
  rw [hg] at hp hl
  cases r with
  | error e => simp at hp
  | ok u => exact ⟨s, hp.2, (hl rfl).1, (hl rfl).2⟩

/-- C85 is false of the list of the address table: whenever `disassociate` succeeds with a copy of it, leaving no group
address, it also succeeds with the list itself, but the second, the fourth, ... address stays known, stays with the ASAP,
and telegrams to it are still for the ASAP. -/
theorem c85_live_refuted (t : AssocTable) (hs : t.at_.gas.Pairwise fun a b => a.fs.toNat < b.fs.toNat)
    (hi : t.at_.ind.fs ∉ t.at_.gas.map Addr.fs) (hb : t.rebuild = t) (asap : Asap)
    (h : (disassociateFrom asap (.list t.at_.gas) t).1 = .ok ()) :
    (disassociateFrom asap (.list t.at_.gas) t).2.at_.gas = [] ∧
      (disassociateFrom asap .live t).1 = .ok () ∧
      (∀ i a, t.at_.gas[2 * i]? = some a → (disassociateFrom asap .live t).2.getTsap a = none) ∧
      ∀ i a, t.at_.gas[2 * i + 1]? = some a →
        (disassociateFrom asap .live t).2.getTsap a ≠ none ∧
        a.fs ∈ addressesOf (disassociateFrom asap .live t).2.absDict asap.value ∧
        ∃ r, (disassociateFrom asap .live t).2.getAsapsFromAddress a = .ok r ∧ asap.value ∈ r.map Asap.value := by
  have hle : t.at_.gas.Pairwise fun a b => a.fs.toNat ≤ b.fs.toNat := hs.imp fun h => le_of_lt h
  have hnd : (t.at_.gas.map Addr.fs).Nodup := by
    rw [List.Nodup, List.pairwise_map]
    exact hs.imp fun {a b} h e => by rw [e] at h; omega
  have h' : (AssocTable.disassociate asap t.at_.gas t).1 = .ok () := h
  have hiff := (c83_disassociate t hle hb asap t.at_.gas).1 h'
  have hsub : ((everySecond t.at_.gas).map Addr.fs).Sublist (t.at_.gas.map Addr.fs) :=
    (everySecond_sublist _).map _
  have hok : (AssocTable.disassociate asap (everySecond t.at_.gas) t).1 = .ok () := by
    rw [c83_disassociate t hle hb]
    rcases hiff with h0 | ⟨h1, h2⟩
    · left
      rw [h0]
      rfl
    · right
      refine ⟨h1, fun x => ⟨(hsub.count_le x).trans (h2 x).1, Or.inr (hsub.count_le x)⟩⟩
  rw [c85_live asap t hs hi]
  obtain ⟨s, g1, g2, g3⟩ := disassociate_left asap _ t hle hb (fun hc => hi (hsub.subset hc)) hok
  obtain ⟨s0, k1, k2, -⟩ := disassociate_left asap _ t hle hb hi h'
  have htsap : ∀ a : Addr, (AssocTable.disassociate asap (everySecond t.at_.gas) t).2.getTsap a =
      place t.at_.ind.fs s.known a.fs := fun a => g1.hind ▸ getTsap_place g1.sorted g1.known a
  refine ⟨?_, hok, fun i a ha => ?_, fun i a ha => ?_⟩
  · have hz : s0.known = [] := by
      rw [List.eq_nil_iff_forall_not_mem]
      intro x hx
      have := List.count_pos_iff.2 hx
      rw [k2, count_foldl_erase] at this
      omega
    have := k1.known
    have hz' : s0.renewed.known = [] := hz
    rw [hz'] at this
    have he : (AssocTable.disassociate asap t.at_.gas t).2.at_.gas = [] := by simpa using this.length_eq
    exact he
  · have hmem : a ∈ t.at_.gas := List.mem_of_getElem? ha
    have hev : a.fs ∈ (everySecond t.at_.gas).map Addr.fs := by
      rw [← everySecond_even] at ha
      exact List.mem_map.2 ⟨a, List.mem_of_getElem? ha, rfl⟩
    rw [htsap, place_none]
    refine ⟨fun hc => ?_, fun e => hi (by rw [← e]; exact List.mem_map.2 ⟨a, hmem, rfl⟩)⟩
    have := List.count_pos_iff.2 hc
    rw [g2, count_foldl_erase] at this
    have h1 := List.nodup_iff_count_le_one.1 hnd a.fs
    have h2 := List.count_pos_iff.2 hev
    omega
  · have hmem : a.fs ∈ t.at_.gas.map Addr.fs := List.mem_map.2 ⟨a, List.mem_of_getElem? ha, rfl⟩
    have hodd := everySecond_odd hs i a ha
    have hin : ∀ l : List (BitVec 16), a.fs ∈ l → a.fs ∈ ((everySecond t.at_.gas).map Addr.fs).foldl List.erase l := by
      intro l hl
      rw [← List.count_pos_iff, count_foldl_erase, List.count_eq_zero.2 hodd]
      exact List.count_pos_iff.2 hl
    have hknown : a.fs ∈ s.known := g2 ▸ hin _ hmem
    have haddr : a.fs ∈ addressesOf s.assoc asap.value := by
      rw [g3, addressesOf_less]
      apply hin
      rcases hiff with h0 | ⟨h1, h2⟩
      · rw [h0] at hmem
        simp at hmem
      · rw [← List.count_pos_iff]
        exact lt_of_lt_of_le (List.count_pos_iff.2 hmem) (h2 a.fs).1
    refine ⟨fun hn => ?_, ?_, ?_⟩
    · rw [htsap, place_none] at hn
      exact hn.1 hknown
    · have : (AssocTable.disassociate asap (everySecond t.at_.gas) t).2.absDict = s.assoc := g1.assoc
      rw [this]
      exact haddr
    · have hl := agrees_routes g1 a
      unfold TableState.renewed at hl
      rw [listed_current, if_pos (Or.inl hknown)] at hl
      have hm := routed_of_addressesOf _ _ _ haddr
      unfold AssocTable.Routes at hl
      rw [if_neg (List.ne_nil_of_mem hm)] at hl
      obtain ⟨r, hr1, hr2⟩ := hl
      exact ⟨r, hr1, by rw [hr2]; exact hm⟩

/-- One ASAP with three addresses. -/
def exIterThree : AssocTable where
  at_ := ⟨9, ⟨0, 0x1004⟩, [⟨1, 0x0010⟩, ⟨2, 0x0020⟩, ⟨3, 0x0030⟩]⟩
  asapAddrs := [(⟨0, none⟩, [⟨0, 0x1004⟩]), (⟨1, none⟩, [⟨3, 0x0030⟩, ⟨1, 0x0010⟩, ⟨2, 0x0020⟩])]
  tsapAsaps := [(some 0, [⟨0, none⟩]), (some 3, [⟨1, none⟩]), (some 1, [⟨1, none⟩]), (some 2, [⟨1, none⟩])]

example : (disassociateFrom ⟨1, none⟩ .live exIterThree).2.getTsap ⟨7, 0x0020⟩ ≠ none :=
  (((c85_live_refuted exIterThree (by decide +kernel) (by decide +kernel) (by decide +kernel) ⟨1, none⟩
    (by decide +kernel)).2.2.2 0 ⟨2, 0x0020⟩ rfl).1 : _)

example : disassociateFrom ⟨1, none⟩ .live exIterThree =
    AssocTable.disassociate ⟨1, none⟩ [⟨1, 0x0010⟩, ⟨3, 0x0030⟩] exIterThree :=
  c85_live ⟨1, none⟩ exIterThree (by decide +kernel) (by decide +kernel)

example : associateFrom ⟨2, none⟩ .live exIterThree =
    AssocTable.associate ⟨2, none⟩ [⟨1, 0x0010⟩, ⟨2, 0x0020⟩, ⟨3, 0x0030⟩] exIterThree :=
  (c85_partial ⟨2, none⟩ .live exIterThree).1 (fun _ => by simp)

end Knx
