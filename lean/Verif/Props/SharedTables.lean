import Verif.Spec.SharedTables
import Verif.Props.TableMachine
import Verif.Props.GroupObjects

/-! # C86, C87: tables that share an object -/

namespace Knx

open Spec

/-! ## C86: group object tables -/

/-- Every table has the content it should have; the dicts held by tables are among the given ones, no two tables hold
the same; the other dicts are as they should be. -/
structure Parted (h : GoHeap) (w : GoWorld) (given : List Nat) : Prop where
  length : h.tables.length = w.tables.length
  content : ∀ i : Nat, h.content i = (w.tables[i]?).getD []
  held : ∀ (i d : Nat), h.tables[i]? = some (Sum.inl d) → d ∈ given
  alone : ∀ (i j d : Nat), h.tables[i]? = some (Sum.inl d) → h.tables[j]? = some (Sum.inl d) → i = j
  dicts : ∀ d : Nat, d ∉ given → h.dicts[d]? = w.dicts[d]?
  number : h.dicts.length = w.dicts.length
  range : ∀ (i d : Nat), h.tables[i]? = some (Sum.inl d) → d < h.dicts.length

theorem content_change (h : GoHeap) (i j : Nat) (f : GroupObjectTable → GroupObjectTable) (hi : i < h.tables.length)
    (hr : ∀ d, h.tables[i]? = some (Sum.inl d) → d < h.dicts.length)
    (ha : ∀ d, h.tables[i]? = some (Sum.inl d) → h.tables[j]? = some (Sum.inl d) → i = j) :
    (h.change i f).content j = if i = j then f (h.content j) else h.content j := by
  obtain ⟨r, hr'⟩ : ∃ r, h.tables[i]? = some r := ⟨_, List.getElem?_eq_getElem hi⟩
  cases r with
  | inl d =>
    have hd := hr d hr'
    unfold GoHeap.change GoHeap.content
    rw [hr']
    simp only
    cases hj : h.tables[j]? with
    | none =>
      have : i ≠ j := by
        rintro rfl
        rw [hj] at hr'
        simp at hr'
      rw [if_neg this]
    | some q =>
      cases q with
      | inl e =>
        simp only [GoHeap.dictOf, List.getElem?_modify]
        by_cases hde : d = e
        · subst hde
          rw [if_pos (ha d hr' hj), List.getElem?_eq_getElem hd]
          simp
        · have hij : i ≠ j := by
            rintro rfl
            rw [hj] at hr'
            simp only [Option.some.injEq, Sum.inl.injEq] at hr'
            exact hde hr'.symm
          rw [if_neg hij]
          simp [hde]
      | inr t =>
        have : i ≠ j := by
          rintro rfl
          rw [hj] at hr'
          simp at hr'
        simp [if_neg this]
  | inr t =>
    unfold GoHeap.change GoHeap.content
    rw [hr']
    simp only [List.getElem?_set, hi]
    by_cases hij : i = j
    · subst hij
      rw [if_pos rfl, if_pos rfl, hr']
      rfl
    · rw [if_neg hij, if_neg hij]
      rfl

theorem parted_change {h : GoHeap} {w : GoWorld} {given : List Nat} (hp : Parted h w given) (i : Nat)
    (f : GroupObjectTable → GroupObjectTable) : Parted (h.change i f) { w with tables := w.tables.modify i f } given := by
  by_cases hi : i < h.tables.length
  swap
  · have h0 : h.tables[i]? = none := List.getElem?_eq_none (by omega)
    have h1 : h.change i f = h := by
      unfold GoHeap.change
      rw [h0]
    have h2 : w.tables.modify i f = w.tables := List.modify_eq_self (by rw [← hp.length]; omega)
    rw [h1, h2]
    exact hp
  have hlen : (h.change i f).tables.length = h.tables.length := by
    unfold GoHeap.change
    split <;> simp
  have hrefs : ∀ (j d : Nat), (h.change i f).tables[j]? = some (Sum.inl d) → h.tables[j]? = some (Sum.inl d) := by
    intro j d hj
    unfold GoHeap.change at hj
    split at hj
    · exact hj
    · exact hj
    · rename_i t ht
      rw [List.getElem?_set] at hj
      split_ifs at hj with h1 h2
      · simp at hj
      · exact hj
  have hnum : (h.change i f).dicts.length = h.dicts.length := by
    unfold GoHeap.change
    split <;> simp
  refine ⟨by rw [hlen, hp.length]; simp, fun j => ?_, fun j d hj => hp.held j d (hrefs j d hj),
    fun j k d hj hk => hp.alone j k d (hrefs j d hj) (hrefs k d hk), fun d hd => ?_, by rw [hnum, hp.number],
    fun j d hj => by rw [hnum]; exact hp.range j d (hrefs j d hj)⟩
  · rw [content_change h i j f hi (hp.range i) fun d h1 h2 => hp.alone i j d h1 h2, hp.content]
    simp only [List.getElem?_modify]
    by_cases hij : i = j
    · subst hij
      rw [hp.length] at hi
      simp [List.getElem?_eq_getElem hi]
    · simp [hij]
  · rw [← hp.dicts d hd]
    unfold GoHeap.change
    split
    · rfl
    · rename_i e he
      have : e ≠ d := fun e' => hd (e' ▸ hp.held i e he)
      simp [this]
    · rfl

/-- Tables do not see a change of dicts they do not hold. -/
theorem content_dicts {h h' : GoHeap} (ht : h'.tables = h.tables)
    (hd : ∀ (i d : Nat), h.tables[i]? = some (Sum.inl d) → h'.dicts[d]? = h.dicts[d]?) (i : Nat) :
    h'.content i = h.content i := by
  unfold GoHeap.content
  rw [ht]
  cases hi : h.tables[i]? with
  | none => rfl
  | some r =>
    cases r with
    | inl d =>
      simp only [GoHeap.dictOf]
      rw [hd i d hi]
    | inr t => rfl

theorem content_last (h : GoHeap) (r : Nat ⊕ GroupObjectTable) (i : Nat) :
    ({ h with tables := h.tables ++ [r] } : GoHeap).content i =
      if i = h.tables.length then r.elim h.dictOf id else h.content i := by
  unfold GoHeap.content
  simp only
  by_cases hi : i = h.tables.length
  · subst hi
    rw [if_pos rfl]
    simp only [List.getElem?_concat_length]
    cases r <;> rfl
  · rw [if_neg hi]
    rcases Nat.lt_or_ge i h.tables.length with hlt | hge
    · rw [List.getElem?_append_left hlt]
      rfl
    · rw [List.getElem?_eq_none (by simp; omega), List.getElem?_eq_none (by omega)]

theorem parted_table {h : GoHeap} {w : GoWorld} {given more : List Nat} (hp : Parted h w given)
    (r : Nat ⊕ GroupObjectTable) (t : GroupObjectTable) (hc : r.elim h.dictOf id = t)
    (hr : ∀ d, r = .inl d → d ∉ given ∧ d ∈ more ∧ d < h.dicts.length) :
    Parted { h with tables := h.tables ++ [r] } { w with tables := w.tables ++ [t] } (more ++ given) := by
  have hrefs : ∀ (i d : Nat), (h.tables ++ [r])[i]? = some (Sum.inl d) →
      i < h.tables.length ∧ h.tables[i]? = some (Sum.inl d) ∨ i = h.tables.length ∧ r = .inl d := by
    intro i d hi
    rcases Nat.lt_trichotomy i h.tables.length with hlt | heq | hgt
    · rw [List.getElem?_append_left hlt] at hi
      exact Or.inl ⟨hlt, hi⟩
    · subst heq
      simp only [List.getElem?_concat_length, Option.some.injEq] at hi
      exact Or.inr ⟨rfl, hi⟩
    · rw [List.getElem?_eq_none (by simp; omega)] at hi
      simp at hi
  refine ⟨by simp [hp.length], fun i => ?_, fun i d hi => ?_, fun i j d hi hj => ?_, fun d hd => ?_, hp.number,
    fun i d hi => ?_⟩
  · rw [content_last, hp.content]
    by_cases hi : i = h.tables.length
    · rw [if_pos hi, hc, hi, hp.length]
      simp
    · rw [if_neg hi]
      rcases Nat.lt_or_ge i w.tables.length with hlt | hge
      · simp only [List.getElem?_append_left hlt]
      · rw [List.getElem?_eq_none (by omega), List.getElem?_eq_none (by simp; rw [hp.length] at hi; omega)]
  · rcases hrefs i d hi with ⟨-, h1⟩ | ⟨-, h1⟩
    · exact List.mem_append_right _ (hp.held i d h1)
    · exact List.mem_append_left _ (hr d h1).2.1
  · rcases hrefs i d hi with ⟨-, h1⟩ | ⟨h0, h1⟩ <;> rcases hrefs j d hj with ⟨-, h2⟩ | ⟨h3, h2⟩
    · exact hp.alone i j d h1 h2
    · exact absurd (hp.held i d h1) (hr d h2).1
    · exact absurd (hp.held j d h2) (hr d h1).1
    · rw [h0, h3]
  · exact hp.dicts d fun hc => hd (List.mem_append_right _ hc)
  · rcases hrefs i d hi with ⟨-, h1⟩ | ⟨-, h1⟩
    · exact hp.range i d h1
    · exact (hr d h1).2.2

theorem parted_call {h : GoHeap} {w : GoWorld} {given : List Nat} (hp : Parted h w given) (c : GoCall)
    (hs : Separate given c) : Parted (h.call c).2 (w.call c) (givenBy w c ++ given) := by
  cases c with
  | dict items =>
    refine ⟨hp.length, fun i => ?_, hp.held, hp.alone, fun d hd => ?_, by simp [GoHeap.call, GoWorld.call, hp.number],
      fun i d hi => ?_⟩
    · have := content_dicts (h := h) (h' := (h.call (.dict items)).2) rfl (fun i d hi =>
        List.getElem?_append_left (hp.range i d hi)) i
      rw [this]
      exact hp.content i
    · have := hp.dicts d hd
      simp only [GoHeap.call, GoWorld.call, List.getElem?_append, hp.number, this]
    · have := hp.range i d hi
      simp only [GoHeap.call, List.length_append]
      omega
  | table g =>
    cases g with
    | none => exact parted_table hp (.inr []) [] rfl (by simp)
    | some d =>
      have hd : d ∉ given := hs
      have he : (w.dicts[d]?).getD [] = h.dictOf d := by
        unfold GoHeap.dictOf
        rw [hp.dicts d hd]
      simp only [GoHeap.call, GoWorld.call, givenBy, Option.bind_some, he]
      by_cases h0 : h.dictOf d = []
      · rw [if_pos h0, if_pos h0]
        exact parted_table hp (.inr []) _ h0.symm (by simp)
      · rw [if_neg h0, if_neg h0]
        refine parted_table hp (.inl d) _ rfl fun e he => ?_
        simp only [Sum.inl.injEq] at he
        subst he
        refine ⟨hd, by simp, ?_⟩
        by_contra hlt
        apply h0
        unfold GoHeap.dictOf
        rw [List.getElem?_eq_none (by omega)]
        rfl
  | associate i asap c => exact parted_change hp i _
  | disassociate i asap => exact parted_change hp i _
  | setItem d asap c =>
    have hd : d ∉ given := hs
    refine ⟨hp.length, fun i => ?_, hp.held, hp.alone, fun e he => ?_, by simp [GoHeap.call, GoWorld.call, hp.number],
      fun i e hi => ?_⟩
    · have := content_dicts (h := h) (h' := (h.call (.setItem d asap c)).2) rfl (fun i e hi => by
        have : d ≠ e := fun e' => hd (e' ▸ hp.held i e hi)
        simp [GoHeap.call, this]) i
      rw [this]
      exact hp.content i
    · simp only [GoHeap.call, GoWorld.call, List.getElem?_modify, hp.dicts e he]
    · simpa [GoHeap.call] using hp.range i e hi

/-- C86, for callers that hand over no nonempty dict twice and leave those they handed over alone: every table has
exactly the content that its dict had when it was made, changed by its own calls. -/
theorem c86_partial (calls : List GoCall) (h : AllSeparate {} [] calls) (i : Nat) :
    (GoHeap.run {} calls).content i = ((GoWorld.run {} calls).tables[i]?).getD [] := by
  have key : ∀ (calls : List GoCall) (h : GoHeap) (w : GoWorld) (given : List Nat), Parted h w given →
      AllSeparate w given calls → ∃ given', Parted (h.run calls) (w.run calls) given' := by
    intro calls
    induction calls with
    | nil => exact fun h w g hp _ => ⟨g, hp⟩
    | cons c calls ih => exact fun h w g hp ha => ih _ _ _ (parted_call hp c ha.1) ha.2
  obtain ⟨g, hp⟩ := key calls {} {} [] ⟨rfl, fun i => by simp [GoHeap.content], by simp, by simp, by simp, rfl, by simp⟩ h
  exact hp.content i

/-- C86 is false of every dict that is not empty: of two tables made of it, what one associates the other has, what one
disassociates the other has no longer, and both have what the caller puts into the dict. -/
theorem c86_shared_refuted (h : GoHeap) (d : Nat) (hd : h.dictOf d ≠ [])
    (hn : ((h.dictOf d).map fun p => p.1.value).Nodup) (asap : Asap) (c : DptClass) :
    let h' := h.run [.table (some d), .table (some d)]
    let i := h.tables.length
    ((h'.call (.associate i asap c)).2.content (i + 1)).lookup asap = .ok c ∧
      ((h'.call (.disassociate i asap)).2.content (i + 1)).lookup asap = .error .keyError ∧
      ((h'.call (.setItem d asap c)).2.content (i + 1)).lookup asap = .ok c := by
  intro h' i
  have hlt : d < h.dicts.length := by
    by_contra hlt
    apply hd
    unfold GoHeap.dictOf
    rw [List.getElem?_eq_none (by omega)]
    rfl
  have hh : h' = { h with tables := h.tables ++ [.inl d] ++ [.inl d] } := by
    have hd2 : ({ h with tables := h.tables ++ [.inl d] } : GoHeap).dictOf d ≠ [] := hd
    simp only [h', GoHeap.run, List.foldl_cons, List.foldl_nil, GoHeap.call, if_neg hd, if_neg hd2]
  have h1 : h'.tables[i]? = some (Sum.inl d) := by
    rw [hh]
    simp [i]
  have h2 : h'.tables[i + 1]? = some (Sum.inl d) := by
    rw [hh]
    simp [i]
  have hdicts : h'.dicts = h.dicts := by rw [hh]
  have hc : ∀ f : GroupObjectTable → GroupObjectTable,
      ({ h' with dicts := h'.dicts.modify d f } : GoHeap).content (i + 1) = f (h.dictOf d) := by
    intro f
    unfold GoHeap.content
    simp only [h2, GoHeap.dictOf, hdicts]
    rw [List.getElem?_modify_eq, List.getElem?_eq_getElem hlt]
    rfl
  have hch : ∀ f : GroupObjectTable → GroupObjectTable, (h'.change i f).content (i + 1) = f (h.dictOf d) := by
    intro f
    rw [← hc f]
    unfold GoHeap.change
    rw [h1]
  refine ⟨?_, ?_, ?_⟩
  · simp only [GoHeap.call]
    rw [hch]
    unfold GroupObjectTable.lookup GroupObjectTable.associate
    rw [dictGet_dictSet_same asap_keyEq _ rfl]
  · simp only [GoHeap.call]
    rw [hch]
    unfold GroupObjectTable.lookup GroupObjectTable.disassociate
    cases hg : dictGet Asap.eq (h.dictOf d) asap with
    | none => simp [hg]
    | some x =>
      simp only
      rw [dictGet_dictDel hn]
      simp
  · simp only [GoHeap.call]
    rw [hc]
    unfold GroupObjectTable.lookup
    rw [dictGet_dictSet_same asap_keyEq _ rfl]

/-- Two dicts, two tables of them, one of an empty dict, then changes of all three and of a third dict. -/
def exSeparate : List GoCall :=
  [.dict [(⟨1, none⟩, .switch)], .dict [(⟨1, none⟩, .upDown)], .dict [], .table (some 0), .table (some 1), .table (some 2),
    .associate 0 ⟨2, none⟩ .upDown, .disassociate 1 ⟨1, none⟩, .setItem 2 ⟨5, none⟩ .switch,
    .associate 2 ⟨5, none⟩ .upDown]

example : (GoHeap.run {} exSeparate).content 1 = ((GoWorld.run {} exSeparate).tables[1]?).getD [] :=
  c86_partial exSeparate (by simp [exSeparate, AllSeparate, Separate, givenBy, GoWorld.call, GroupObjectTable.init, dictSet]) 1

example : let h : GoHeap := { dicts := [[(⟨1, none⟩, .switch)]] }
    (((h.run [.table (some 0), .table (some 0)]).call (.associate 0 ⟨1, none⟩ .upDown)).2.content 1).lookup ⟨1, none⟩ =
      .ok .upDown :=
  (c86_shared_refuted { dicts := [[(⟨1, none⟩, .switch)]] } 0 (by simp [GoHeap.dictOf]) (by simp [GoHeap.dictOf])
    ⟨1, none⟩ .upDown).1

/-! ## C87: two association tables with one address table -/

open AssocTable

/-- The other table sees the addresses only. -/
theorem agrees_beside {t u : AssocTable} {ind : Addr} {max : Nat} {s r : TableState} (h : Agrees t ind max s)
    (g : Agrees u ind max r) : Agrees { t with at_ := u.at_ } ind max { s with known := r.known } := by
  obtain ⟨at0, d0, hb, g1, g2⟩ := h.seen
  exact ⟨g.hind, g.hmax, g.sorted, g.known, h.assoc, at0, d0,
    ⟨hb.index, by rw [hb.ind, h.hind]; exact g.hind.symm, hb.sorted⟩, g1, g2⟩

theorem agrees_two {p : TwoTables} {ind : Addr} {max : Nat} {s : TableState × TableState} (h1 : Agrees p.one ind max s.1)
    (h2 : Agrees p.two ind max s.2) (second : Bool) (op : AssocTable.Op) :
    (p.perform second op).1 = (callTwo ind max s second op).1 ∧
      Agrees (p.perform second op).2.one ind max (callTwo ind max s second op).2.1 ∧
      Agrees (p.perform second op).2.two ind max (callTwo ind max s second op).2.2 := by
  cases second with
  | true =>
    obtain ⟨g1, g2⟩ := agrees_perform h2 op
    exact ⟨g1, agrees_beside h1 g2, g2⟩
  | false =>
    obtain ⟨g1, g2⟩ := agrees_perform h1 op
    exact ⟨g1, g2, agrees_beside h2 g2⟩

/-- C87, exactly what happens: whatever calls are made on both tables, in whatever order and whether they raise or not,
each raises, and afterwards each table lists and sends to, what two reference machines say that have the known addresses
in common and nothing else. In particular a call on one table never renews what the other remembers. -/
theorem c87_machine (ia : Addr) (as : List Addr) (max : Nat) (ops : List (Bool × AssocTable.Op)) :
    let p := (TwoTables.blank (AddressTable.init ia as max)).run ops
    let s := runTwo ia max (.start (as.map Addr.fs), .start (as.map Addr.fs)) ops
    (TwoTables.blank (AddressTable.init ia as max)).results ops =
        raisesTwo ia max (.start (as.map Addr.fs), .start (as.map Addr.fs)) ops ∧
      (∀ a, p.one.Routes a (s.1.listed ia.fs a.fs)) ∧ (∀ a, p.two.Routes a (s.2.listed ia.fs a.fs)) ∧
      (∀ asap, p.one.sendAddresses asap = s.1.sent ia.fs asap.value) ∧
      (∀ asap, p.two.sendAddresses asap = s.2.sent ia.fs asap.value) := by
  have key : ∀ (ops : List (Bool × AssocTable.Op)) (p : TwoTables) (s : TableState × TableState),
      Agrees p.one ia max s.1 → Agrees p.two ia max s.2 →
      p.results ops = raisesTwo ia max s ops ∧ Agrees (p.run ops).one ia max (runTwo ia max s ops).1 ∧
        Agrees (p.run ops).two ia max (runTwo ia max s ops).2 := by
    intro ops
    induction ops with
    | nil => exact fun p s h1 h2 => ⟨rfl, h1, h2⟩
    | cons o ops ih =>
      intro p s h1 h2
      obtain ⟨g0, g1, g2⟩ := agrees_two h1 h2 o.1 o.2
      obtain ⟨k0, k1, k2⟩ := ih _ _ g1 g2
      refine ⟨?_, k1, k2⟩
      simp only [TwoTables.results, raisesTwo, g0, k0]
  have h0 : Agrees (AssocTable.blank (AddressTable.init ia as max)) ia max (.start (as.map Addr.fs)) :=
    agrees_init ia as max []
  obtain ⟨k0, k1, k2⟩ := key ops (TwoTables.blank (AddressTable.init ia as max))
    (.start (as.map Addr.fs), .start (as.map Addr.fs)) h0 h0
  exact ⟨k0, agrees_routes k1, agrees_routes k2, agrees_sent k1, agrees_sent k2⟩

/-- The state of the first table after the second has associated one new address. -/
theorem beside_new (p : TwoTables) (hat : p.two.at_ = p.one.at_)
    (hs : p.one.at_.gas.Pairwise fun a b => a.fs.toNat ≤ b.fs.toNat) (hb : p.one.rebuild = p.one)
    (hb2 : p.two.rebuild = p.two) (asap : Asap) (x : Addr) (hx : x.fs ∉ p.one.at_.gas.map Addr.fs)
    (ho : x.oid ≠ p.one.at_.ind.oid) (hroom : p.one.at_.gas.length < p.one.at_.maxSize) :
    (p.perform true (.associate asap [x])).1 = .ok () ∧
    Agrees (p.perform true (.associate asap [x])).2.one p.one.at_.ind p.one.at_.maxSize
      ⟨p.one.at_.gas.map Addr.fs ++ [x.fs], p.one.absDict, p.one.at_.gas.map Addr.fs, p.one.absDict⟩ := by
  have h1 := agrees_current hs hb
  have h2 := agrees_current (by rw [hat]; exact hs) hb2
  rw [hat] at h2
  have hnew : newOnes p.one.at_.ind (p.one.at_.gas.map Addr.fs) [x] = [x.fs] := by
    unfold newOnes
    simp only [List.filter_cons, ho, ne_eq, not_false_eq_true, decide_true, if_true, List.filter_nil, List.map_cons,
      List.map_nil, hx]
    rfl
  have hk : (currentState p.two).known = p.one.at_.gas.map Addr.fs := by
    unfold currentState
    rw [hat]
  have := agrees_two (s := (currentState p.one, currentState p.two)) h1 h2 true (.associate asap [x])
  simp only [callTwo, if_true, TableState.call, TableState.associate, hk, hnew, List.length_map, List.length_cons,
    List.length_nil] at this
  rw [if_pos (by right; omega)] at this
  exact ⟨this.1, this.2.1⟩

theorem countP_between {k : List (BitVec 16)} {x b : BitVec 16} (hx : x ∉ k) (hlt : x.toNat < b.toNat)
    (hno : ∀ z ∈ k, z.toNat < b.toNat → z.toNat < x.toNat) :
    k.countP (fun z => decide (z.toNat < x.toNat)) = k.countP (fun z => decide (z.toNat < b.toNat)) := by
  apply List.countP_congr
  intro z hz
  simp only [decide_eq_true_eq]
  exact ⟨fun h => by omega, fun h => hno z hz h⟩

/-- C87 is false whenever the second table associates an address with a known address above it. The first table, none of
whose ASAPs is associated with the new address, takes telegrams to it for those to the next known address; and it takes
telegrams to the greatest known address for nobody's (`KeyError`), whoever is associated with it. -/
theorem c87_refuted (p : TwoTables) (hat : p.two.at_ = p.one.at_)
    (hs : p.one.at_.gas.Pairwise fun a b => a.fs.toNat ≤ b.fs.toNat) (hb : p.one.rebuild = p.one)
    (hb2 : p.two.rebuild = p.two) (asap : Asap) (x : Addr) (hx : x.fs ∉ p.one.at_.gas.map Addr.fs)
    (ho : x.oid ≠ p.one.at_.ind.oid) (hroom : p.one.at_.gas.length < p.one.at_.maxSize)
    (b : Addr) (hbm : b.fs ∈ p.one.at_.gas.map Addr.fs) (hlt : x.fs.toNat < b.fs.toNat)
    (hno : ∀ z ∈ p.one.at_.gas.map Addr.fs, z.toNat < b.fs.toNat → z.toNat < x.fs.toNat)
    (m : Addr) (hm : m.fs ∈ p.one.at_.gas.map Addr.fs) (hmax : ∀ z ∈ p.one.at_.gas.map Addr.fs, z.toNat ≤ m.fs.toNat) :
    (p.perform true (.associate asap [x])).1 = .ok () ∧
      p.one.Routes b (routed p.one.absDict b.fs) ∧
      (p.perform true (.associate asap [x])).2.one.Routes x (routed p.one.absDict b.fs) ∧
      p.one.Routes m (routed p.one.absDict m.fs) ∧
      (p.perform true (.associate asap [x])).2.one.getAsapsFromAddress m = .error .keyError := by
  obtain ⟨h1, h2⟩ := beside_new p hat hs hb hb2 asap x hx ho hroom
  have hcur := agrees_current hs hb
  have now : ∀ a : Addr, a.fs ∈ p.one.at_.gas.map Addr.fs → p.one.Routes a (routed p.one.absDict a.fs) := by
    intro a ha
    have := agrees_routes hcur a
    rw [currentState, listed_current, if_pos (Or.inl ha)] at this
    exact this
  refine ⟨h1, now b hbm, ?_, now m hm, ?_⟩
  · have hr := agrees_routes h2 x
    have hpl : place p.one.at_.ind.fs (p.one.at_.gas.map Addr.fs ++ [x.fs]) x.fs =
        place p.one.at_.ind.fs (p.one.at_.gas.map Addr.fs) b.fs := by
      unfold place
      rw [if_pos (by simp), if_pos hbm, List.countP_append, countP_between hx hlt hno]
      simp
    have hl : (⟨p.one.at_.gas.map Addr.fs ++ [x.fs], p.one.absDict, p.one.at_.gas.map Addr.fs, p.one.absDict⟩ :
        TableState).listed p.one.at_.ind.fs x.fs = routed p.one.absDict b.fs := by
      rw [show routed p.one.absDict b.fs = (⟨p.one.at_.gas.map Addr.fs, p.one.absDict, p.one.at_.gas.map Addr.fs,
        p.one.absDict⟩ : TableState).listed p.one.at_.ind.fs b.fs by rw [listed_current, if_pos (Or.inl hbm)]]
      unfold TableState.listed
      simp only [hpl]
    rw [hl] at hr
    exact hr
  · have hr := agrees_routes h2 m
    have hxm : x.fs.toNat < m.fs.toNat := lt_of_lt_of_le hlt (hmax _ hbm)
    have hl : (⟨p.one.at_.gas.map Addr.fs ++ [x.fs], p.one.absDict, p.one.at_.gas.map Addr.fs, p.one.absDict⟩ :
        TableState).listed p.one.at_.ind.fs m.fs = [] := by
      unfold TableState.listed
      rw [List.flatMap_eq_nil_iff]
      intro q _
      rw [List.replicate_eq_nil_iff, List.countP_eq_zero]
      intro y _
      simp only [decide_eq_true_eq]
      rw [show place p.one.at_.ind.fs (p.one.at_.gas.map Addr.fs ++ [x.fs]) m.fs =
          some ((p.one.at_.gas.map Addr.fs).countP (fun z => decide (z.toNat < m.fs.toNat)) + 2) by
        unfold place
        rw [if_pos (List.mem_append_left _ hm), List.countP_append]
        simp [hxm]]
      unfold place
      by_cases hy : y ∈ p.one.at_.gas.map Addr.fs
      · rw [if_pos hy]
        have : (p.one.at_.gas.map Addr.fs).countP (fun z => decide (z.toNat < y.toNat)) ≤
            (p.one.at_.gas.map Addr.fs).countP (fun z => decide (z.toNat < m.fs.toNat)) := by
          apply List.countP_mono_left
          intro z _ hz
          simp only [decide_eq_true_eq] at hz ⊢
          have := hmax y hy
          omega
        simp only [Option.some.injEq]
        omega
      · rw [if_neg hy]
        split_ifs <;> simp
    rw [hl] at hr
    simpa [AssocTable.Routes] using hr

/-- C87, as long as the second table only associates addresses above all known ones: the first lists for every known
address what it listed before. -/
theorem c87_partial (p : TwoTables) (hat : p.two.at_ = p.one.at_)
    (hs : p.one.at_.gas.Pairwise fun a b => a.fs.toNat ≤ b.fs.toNat) (hb : p.one.rebuild = p.one)
    (hb2 : p.two.rebuild = p.two) (asap : Asap) (x : Addr) (ho : x.oid ≠ p.one.at_.ind.oid)
    (hroom : p.one.at_.gas.length < p.one.at_.maxSize)
    (habove : ∀ z ∈ p.one.at_.gas.map Addr.fs, z.toNat < x.fs.toNat) (a : Addr)
    (ha : a.fs ∈ p.one.at_.gas.map Addr.fs) :
    (p.perform true (.associate asap [x])).1 = .ok () ∧
      p.one.Routes a (routed p.one.absDict a.fs) ∧
      (p.perform true (.associate asap [x])).2.one.Routes a (routed p.one.absDict a.fs) := by
  have hx : x.fs ∉ p.one.at_.gas.map Addr.fs := fun h => by have := habove _ h; omega
  obtain ⟨h1, h2⟩ := beside_new p hat hs hb hb2 asap x hx ho hroom
  have hcur := agrees_current hs hb
  refine ⟨h1, ?_, ?_⟩
  · have := agrees_routes hcur a
    rw [currentState, listed_current, if_pos (Or.inl ha)] at this
    exact this
  · have hr := agrees_routes h2 a
    have hpl : place p.one.at_.ind.fs (p.one.at_.gas.map Addr.fs ++ [x.fs]) a.fs =
        place p.one.at_.ind.fs (p.one.at_.gas.map Addr.fs) a.fs := by
      have := habove _ ha
      unfold place
      rw [if_pos (List.mem_append_left _ ha), if_pos ha, List.countP_append]
      simp only [List.countP_cons, List.countP_nil, decide_eq_true_eq]
      rw [if_neg (by omega)]
    rw [show (⟨p.one.at_.gas.map Addr.fs ++ [x.fs], p.one.absDict, p.one.at_.gas.map Addr.fs, p.one.absDict⟩ :
        TableState).listed p.one.at_.ind.fs a.fs = routed p.one.absDict a.fs by
      rw [show routed p.one.absDict a.fs = (⟨p.one.at_.gas.map Addr.fs, p.one.absDict, p.one.at_.gas.map Addr.fs,
        p.one.absDict⟩ : TableState).listed p.one.at_.ind.fs a.fs by rw [listed_current, if_pos (Or.inl ha)]]
      unfold TableState.listed
      simp only [hpl]] at hr
    exact hr

/-- Two tables with one address table; the first has an ASAP with 0x0010, the second one with 0x0020. -/
def exSharing : TwoTables :=
  (TwoTables.blank (AddressTable.init ⟨0, 0x1004⟩ [] 9)).run
    [(false, .associate ⟨0, none⟩ [⟨0, 0x1004⟩]), (true, .associate ⟨0, none⟩ [⟨0, 0x1004⟩]),
      (false, .associate ⟨1, none⟩ [⟨1, 0x0010⟩]), (true, .associate ⟨7, none⟩ [⟨2, 0x0020⟩])]

theorem exSharing_ok : exSharing.two.at_ = exSharing.one.at_ ∧
    (exSharing.one.at_.gas.Pairwise fun a b => a.fs.toNat ≤ b.fs.toNat) ∧ exSharing.one.rebuild = exSharing.one ∧
    exSharing.two.rebuild = exSharing.two ∧ exSharing.one.at_.gas.map Addr.fs = [0x0010, 0x0020] ∧
    exSharing.one.at_.ind.oid = 0 ∧ exSharing.one.at_.gas.length < exSharing.one.at_.maxSize ∧
    routed exSharing.one.absDict 0x0010 = [1] := by decide +kernel

attribute [local irreducible] exSharing

/-- The second associates 0x0005: the first takes telegrams to it for ASAP 1. -/
example : (exSharing.perform true (.associate ⟨8, none⟩ [⟨3, 0x0005⟩])).2.one.Routes ⟨3, 0x0005⟩ [1] := by
  obtain ⟨h1, h2, h3, h4, h5, h6, h7, h8⟩ := exSharing_ok
  have := (c87_refuted exSharing h1 h2 h3 h4 ⟨8, none⟩ ⟨3, 0x0005⟩ (by rw [h5]; simp) (by rw [h6]; decide) h7
    ⟨1, 0x0010⟩ (by rw [h5]; simp) (by decide) (by rw [h5]; simp) ⟨2, 0x0020⟩ (by rw [h5]; simp)
    (by rw [h5]; simp)).2.2.1
  rw [h8] at this
  exact this

example : (exSharing.perform true (.associate ⟨8, none⟩ [⟨3, 0x0035⟩])).2.one.Routes ⟨1, 0x0010⟩ [1] := by
  obtain ⟨h1, h2, h3, h4, h5, h6, h7, h8⟩ := exSharing_ok
  have := (c87_partial exSharing h1 h2 h3 h4 ⟨8, none⟩ ⟨3, 0x0035⟩ (by rw [h6]; decide) h7 (by rw [h5]; simp)
    ⟨1, 0x0010⟩ (by rw [h5]; simp)).2.2
  rw [h8] at this
  exact this

end Knx
