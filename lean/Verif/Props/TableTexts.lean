import Verif.Model.TableTexts
import Verif.Spec.TableTexts
import Verif.Props.MsgTexts
import Verif.Props.AssocTables

/-! # C90: what the texts of the tables tell -/

namespace Knx
open Spec AssocTable

theorem uptoLast_unique {s : Char} {x y r r' : List Char} (hr : s ∉ r) (hr' : s ∉ r') (h : x ++ s :: r = y ++ s :: r') :
    x = y ∧ r = r' := by
  have h1 : r.reverse ++ s :: x.reverse = r'.reverse ++ s :: y.reverse := by
    have := congrArg List.reverse h
    simpa using this
  obtain ⟨h2, h3⟩ := upto_unique (by simpa using hr) (by simpa using hr') h1
  exact ⟨List.reverse_injective h3, List.reverse_injective h2⟩

theorem asapText_cases (a : Asap) : asapText a = match shownName a with
    | none => intText a.value
    | some n => intText a.value ++ ' ' :: '(' :: (n.toList ++ [')']) := by
  unfold asapText shownName
  cases a.name with
  | none => rfl
  | some n =>
    by_cases h : n = ""
    · subst h
      rfl
    · simp only [Option.filter, h, ne_eq, not_false_eq_true, decide_true, if_true, if_false]
      simp

theorem asapText_eq {a b : Asap} : asapText a = asapText b ↔ a.value = b.value ∧ shownName a = shownName b := by
  constructor
  · intro h
    have hsp : ∀ n : Int, ' ' ∉ intText n := fun n hc => absurd (intText_chars hc) (by decide)
    rw [asapText_cases, asapText_cases] at h
    cases ha : shownName a with
    | none =>
      cases hb : shownName b with
      | none =>
        rw [ha, hb] at h
        exact ⟨intText_inj h, rfl⟩
      | some n =>
        rw [ha, hb] at h
        simp only at h
        exact absurd (by rw [h]; simp) (hsp a.value)
    | some m =>
      cases hb : shownName b with
      | none =>
        rw [ha, hb] at h
        simp only at h
        exact absurd (by rw [← h]; simp) (hsp b.value)
      | some n =>
        rw [ha, hb] at h
        obtain ⟨h1, h2⟩ := upto_unique (hsp _) (hsp _) h
        injection h2 with _ h2
        have h3 : m.toList = n.toList := List.append_cancel_right h2
        exact ⟨intText_inj h1, by rw [String.toList_inj.1 h3]⟩
  · rintro ⟨h1, h2⟩
    rw [asapText_cases, asapText_cases, h1, h2]

theorem newline_asapText {a : Asap} (h : OneLine a) : '\n' ∉ asapText a := newline_asap h

/-- The line of a group object without its end. -/
def objectEntry (p : Asap × DptClass) : List Char := "    ".toList ++ asapText p.1 ++ " -> ".toList ++ p.2.name.toList

theorem objectText_lines (g : GroupObjectTable) :
    g.text = unlines ("GroupObjectTable: ASAP -> datapointtype".toList :: g.map objectEntry) := by
  unfold GroupObjectTable.text unlines
  rw [List.flatMap_cons, List.flatMap_map]
  rfl

theorem name_free (c : DptClass) : '>' ∉ c.name.toList ∧ '\n' ∉ c.name.toList := by
  cases c <;> decide

theorem arrow_split (x r : List Char) : "    ".toList ++ x ++ " -> ".toList ++ r = ("    ".toList ++ x ++ " -".toList) ++ '>' :: (' ' :: r) := by
  simp

theorem arrow_unique {x y r r' : List Char} (hr : '>' ∉ r) (hr' : '>' ∉ r')
    (h : "    ".toList ++ x ++ " -> ".toList ++ r = "    ".toList ++ y ++ " -> ".toList ++ r') : x = y ∧ r = r' := by
  rw [arrow_split, arrow_split] at h
  obtain ⟨h1, h2⟩ := uptoLast_unique (by simp [hr]) (by simp [hr']) h
  injection h2 with _ h2
  exact ⟨List.append_cancel_left (List.append_cancel_right h1), h2⟩

theorem objectEntry_eq {p q : Asap × DptClass} :
    objectEntry p = objectEntry q ↔ (p.1.value, shownName p.1, p.2) = (q.1.value, shownName q.1, q.2) := by
  unfold objectEntry
  constructor
  · intro h
    obtain ⟨h1, h2⟩ := arrow_unique (name_free _).1 (name_free _).1 h
    obtain ⟨h3, h4⟩ := asapText_eq.1 h1
    rw [h3, h4, cls_name_inj h2]
  · intro h
    simp only [Prod.mk.injEq] at h
    rw [asapText_eq.2 ⟨h.1, h.2.1⟩, h.2.2]

theorem map_eq_map {α β γ : Type} {f : α → β} {k : α → γ} (h : ∀ x y, f x = f y ↔ k x = k y) :
    ∀ {l l' : List α}, l.map f = l'.map f ↔ l.map k = l'.map k
  | [], [] => by simp
  | [], y :: l' => by simp
  | x :: l, [] => by simp
  | x :: l, y :: l' => by
    simp only [List.map_cons, List.cons.injEq]
    rw [h x y, map_eq_map h]

/-- C90: two group object tables have the same text exactly if they have the same associations in the same order, the names
of the ASAPs being on one line. -/
theorem c90_objects {g g' : GroupObjectTable} (h : ∀ p ∈ g, OneLine p.1) (h' : ∀ p ∈ g', OneLine p.1) :
    g.text = g'.text ↔
      g.map (fun p => (p.1.value, shownName p.1, p.2)) = g'.map fun p => (p.1.value, shownName p.1, p.2) := by
  have hn : ∀ {g : GroupObjectTable}, (∀ p ∈ g, OneLine p.1) →
      ∀ l ∈ "GroupObjectTable: ASAP -> datapointtype".toList :: g.map objectEntry, '\n' ∉ l := by
    intro g h l hl
    rcases List.mem_cons.1 hl with rfl | hl
    · decide
    · obtain ⟨p, hp, rfl⟩ := List.mem_map.1 hl
      unfold objectEntry
      simp [newline_asapText (h p hp), (name_free p.2).2]
  rw [← map_eq_map (f := objectEntry) fun _ _ => objectEntry_eq]
  rw [objectText_lines, objectText_lines]
  constructor
  · intro he
    have := unlines_inj (hn h) (hn h') he
    injection this
  · intro he
    rw [he]

theorem obj_free (grp : Addr → Bool) (a : Addr) : ∀ c ∈ objText grp a, c ≠ ',' ∧ c ≠ ']' ∧ c ≠ '>' ∧ c ≠ '\n' := by
  intro c hc
  have hd : ∀ n, ∀ c ∈ decimal n, c ≠ ',' ∧ c ≠ ']' ∧ c ≠ '>' ∧ c ≠ '\n' := by
    intro n c hc
    have := decimal_chars hc
    refine ⟨?_, ?_, ?_, ?_⟩ <;> rintro rfl <;> exact absurd this (by decide)
  have hx : ∀ c ∈ hex4 a.fs.toNat, c ≠ ',' ∧ c ≠ ']' ∧ c ≠ '>' ∧ c ≠ '\n' := by
    intro c hc
    have := hex4_chars hc
    refine ⟨?_, ?_, ?_, ?_⟩ <;> rintro rfl <;> exact absurd this (by decide)
  have hl : ∀ l ∈ ["(0x".toList, " ".toList, "/".toList, ")".toList], ∀ c ∈ l, c ≠ ',' ∧ c ≠ ']' ∧ c ≠ '>' ∧ c ≠ '\n' := by
    decide
  unfold objText at hc
  split_ifs at hc
  · unfold groupText at hc
    simp only [List.mem_append] at hc
    rcases hc with (((((((((((hc | hc) | hc) | hc) | hc) | hc) | hc) | hc) | hc) | hc) | hc) | hc) | hc
    · exact hl _ (by simp) c hc
    · exact hx c hc
    · exact hl _ (by simp) c hc
    · exact hd _ c hc
    · exact hl "/".toList (by simp) c hc
    · exact hd _ c hc
    · exact hl " ".toList (by simp) c hc
    · exact hd _ c hc
    · exact hl "/".toList (by simp) c hc
    · exact hd _ c hc
    · exact hl "/".toList (by simp) c hc
    · exact hd _ c hc
    · exact hl ")".toList (by simp) c hc
  · unfold addressText at hc
    rcases List.mem_cons.1 hc with rfl | hc
    · decide
    rcases List.mem_cons.1 hc with rfl | hc
    · decide
    · exact hx c hc

theorem obj_head (grp : Addr → Bool) (a : Addr) : ∃ r, objText grp a = (if grp a then '(' else '0') :: r := by
  unfold objText
  split_ifs
  · exact ⟨_, rfl⟩
  · exact ⟨_, rfl⟩

theorem obj_eq {grp grp' : Addr → Bool} {a b : Addr} :
    objText grp a = objText grp' b ↔ (grp a, a.fs) = (grp' b, b.fs) := by
  constructor
  · intro h
    obtain ⟨r, hr⟩ := obj_head grp a
    obtain ⟨r', hr'⟩ := obj_head grp' b
    have hg : grp a = grp' b := by
      have h0 := h
      rw [hr, hr'] at h0
      injection h0 with h0 _
      revert h0
      cases grp a <;> cases grp' b <;> decide
    unfold objText at h
    rw [← hg] at h
    rw [← hg]
    split_ifs at h
    · rw [groupText_inj h]
    · rw [(c70_address a.fs b.fs).2.1 h]
  · intro h
    simp only [Prod.mk.injEq] at h
    unfold objText
    rw [h.1, h.2]

theorem addrItems_eq {grp grp' : Addr → Bool} : ∀ {l l' : List Addr}, addrItems grp l = addrItems grp' l' ↔
    l.map (fun a => (grp a, a.fs)) = l'.map fun a => (grp' a, a.fs) := by
  have hne : ∀ (grp : Addr → Bool) (a : Addr) (r : List Char), "]".toList ≠ objText grp a ++ r := by
    intro grp a r h
    obtain ⟨u, hu⟩ := obj_head grp a
    rw [hu] at h
    injection h with h _
    revert h
    cases grp a <;> decide
  have hsp : ∀ (grp : Addr → Bool) (a : Addr) (as : List Addr), ∃ r, addrItems grp (a :: as) = objText grp a ++ r ∧
      ∀ c ∈ r.head?, ¬ (c ≠ ',' ∧ c ≠ ']') := by
    intro grp a as
    cases as with
    | nil => exact ⟨"]".toList, rfl, by decide⟩
    | cons b as => exact ⟨", ".toList ++ addrItems grp (b :: as), by rw [← List.append_assoc]; rfl, by simp⟩
  intro l
  induction l with
  | nil =>
    intro l'
    cases l' with
    | nil => exact ⟨fun _ => rfl, fun _ => rfl⟩
    | cons b bs =>
      obtain ⟨r, hr, -⟩ := hsp grp' b bs
      rw [hr]
      exact ⟨fun h => absurd h (hne grp' b r), fun h => by cases h⟩
  | cons a as ih =>
    intro l'
    cases l' with
    | nil =>
      obtain ⟨r, hr, -⟩ := hsp grp a as
      rw [hr]
      exact ⟨fun h => absurd h.symm (hne grp a r), fun h => by cases h⟩
    | cons b bs =>
      have hstep : ∀ (grp : Addr → Bool) (a : Addr) (as : List Addr), ∃ r, addrItems grp (a :: as) = objText grp a ++ r ∧
          (∀ c ∈ r.head?, ¬ (c ≠ ',' ∧ c ≠ ']')) ∧
          r = if as = [] then "]".toList else ", ".toList ++ addrItems grp as := by
        intro grp a as
        cases as with
        | nil => exact ⟨"]".toList, rfl, by decide, rfl⟩
        | cons b as => exact ⟨", ".toList ++ addrItems grp (b :: as), by rw [← List.append_assoc]; rfl, by simp, rfl⟩
      obtain ⟨r, h1, h2, h3⟩ := hstep grp a as
      obtain ⟨r', h1', h2', h3'⟩ := hstep grp' b bs
      rw [List.map_cons, List.map_cons, List.cons.injEq, ← ih, h1, h1']
      have hr : r = r' ↔ addrItems grp as = addrItems grp' bs := by
        rw [h3, h3']
        cases as with
        | nil =>
          cases bs with
          | nil => exact ⟨fun _ => rfl, fun _ => rfl⟩
          | cons b bs =>
            obtain ⟨u, hu, -⟩ := hsp grp' b bs
            rw [if_pos rfl, if_neg (by simp), hu]
            exact ⟨fun h => (by cases h), fun h => absurd h (hne grp' b u)⟩
        | cons a as =>
          cases bs with
          | nil =>
            obtain ⟨u, hu, -⟩ := hsp grp a as
            rw [if_pos rfl, if_neg (by simp), hu]
            exact ⟨fun h => (by cases h), fun h => absurd h.symm (hne grp a u)⟩
          | cons b bs =>
            rw [if_neg (by simp), if_neg (by simp)]
            exact ⟨fun h => List.append_cancel_left h, fun h => by rw [h]⟩
      rw [← obj_eq]
      constructor
      · intro h
        obtain ⟨e1, e2⟩ := span_unique (fun c => c ≠ ',' ∧ c ≠ ']') (fun c hc => ⟨(obj_free grp a c hc).1, (obj_free grp a c hc).2.1⟩)
          (fun c hc => ⟨(obj_free grp' b c hc).1, (obj_free grp' b c hc).2.1⟩) h2 h2' h
        exact ⟨e1, hr.1 e2⟩
      · rintro ⟨e1, e2⟩
        rw [e1, hr.2 e2]

theorem addrItems_free (grp : Addr → Bool) : ∀ l : List Addr, ∀ c ∈ addrItems grp l, c ≠ '>' ∧ c ≠ '\n'
  | [] => by
    intro c hc
    change c ∈ "]".toList at hc
    revert c
    decide
  | [a] => by
    intro c hc
    change c ∈ objText grp a ++ "]".toList at hc
    rcases List.mem_append.1 hc with hc | hc
    · exact (obj_free grp a c hc).2.2
    · clear * - hc
      revert c
      decide
  | a :: b :: as => by
    intro c hc
    change c ∈ objText grp a ++ ", ".toList ++ addrItems grp (b :: as) at hc
    rcases List.mem_append.1 hc with hc | hc
    · rcases List.mem_append.1 hc with hc | hc
      · exact (obj_free grp a c hc).2.2
      · clear * - hc
        revert c
        decide
    · exact addrItems_free grp (b :: as) c hc

/-- The line of an ASAP without its end. -/
def assocEntry (grp : Addr → Bool) (p : Asap × List Addr) : List Char :=
  "    ".toList ++ asapText p.1 ++ " -> ".toList ++ ("[".toList ++ addrItems grp p.2)

theorem assocEntry_eq {grp grp' : Addr → Bool} {p q : Asap × List Addr} :
    assocEntry grp p = assocEntry grp' q ↔ shownEntry grp p = shownEntry grp' q := by
  have hf : ∀ (grp : Addr → Bool) (l : List Addr), '>' ∉ "[".toList ++ addrItems grp l := by
    intro grp l h
    rcases List.mem_append.1 h with h | h
    · exact absurd h (by decide)
    · exact (addrItems_free grp l _ h).1 rfl
  unfold assocEntry shownEntry
  constructor
  · intro h
    obtain ⟨h1, h2⟩ := arrow_unique (hf _ _) (hf _ _) h
    obtain ⟨h3, h4⟩ := asapText_eq.1 h1
    rw [h3, h4, addrItems_eq.1 (List.append_cancel_left h2)]
  · intro h
    simp only [Prod.mk.injEq] at h
    rw [asapText_eq.2 ⟨h.1, h.2.1⟩, addrItems_eq.2 h.2.2]

theorem assocText_lines (grp : Addr → Bool) (t : AssocTable) :
    t.text grp = unlines ("AssociationTable: asap -> addresses".toList :: t.asapAddrs.map (assocEntry grp)) ++ t.at_.text := by
  unfold AssocTable.text unlines
  rw [List.flatMap_cons, List.flatMap_map]
  congr 1
  rw [show "AssociationTable: asap -> addresses\n".toList = "AssociationTable: asap -> addresses".toList ++ ['\n'] by decide]
  congr 1
  congr 1
  funext p
  unfold assocLine assocEntry
  simp only [List.append_assoc]
  rfl

/-- Lines with a leading space, followed by something without one, can be read off. -/
theorem lines_unique {ls ls' : List (List Char)} {r r' : List Char} (h : ∀ l ∈ ls, '\n' ∉ l ∧ l.head? = some ' ')
    (h' : ∀ l ∈ ls', '\n' ∉ l ∧ l.head? = some ' ') (hr : ∃ c u, r = c :: u ∧ c ≠ ' ') (hr' : ∃ c u, r' = c :: u ∧ c ≠ ' ')
    (he : unlines ls ++ r = unlines ls' ++ r') : ls = ls' ∧ r = r' := by
  have hb : ∀ {l : List Char} {ls : List (List Char)} {r r' : List Char}, l.head? = some ' ' → (∃ c u, r' = c :: u ∧ c ≠ ' ') →
      unlines (l :: ls) ++ r ≠ r' := by
    rintro (_ | ⟨c, l⟩) ls r r' hl ⟨d, u, rfl, hd⟩ he
    · cases hl
    · simp only [List.head?_cons, Option.some.injEq] at hl
      subst hl
      unfold unlines at he
      rw [List.flatMap_cons] at he
      injection he with h1 _
      exact hd h1.symm
  induction ls generalizing ls' with
  | nil =>
    cases ls' with
    | nil => exact ⟨rfl, he⟩
    | cons l ls' => exact absurd he.symm (hb (h' l List.mem_cons_self).2 hr)
  | cons l ls ih =>
    cases ls' with
    | nil => exact absurd he (hb (h l List.mem_cons_self).2 hr')
    | cons l' ls' =>
      unfold unlines at he
      simp only [List.flatMap_cons, List.append_assoc, List.singleton_append] at he
      obtain ⟨rfl, h2⟩ := upto_unique (h l List.mem_cons_self).1 (h' l' List.mem_cons_self).1 he
      obtain ⟨rfl, h3⟩ := ih (fun l hl => h l (List.mem_cons_of_mem _ hl)) (fun l hl => h' l (List.mem_cons_of_mem _ hl)) h2
      exact ⟨rfl, h3⟩

/-- C90: two association tables have the same text exactly if they have the same ASAPs with the same addresses in the same
order and their address tables have the same own address, maximal size and group addresses, the names of the ASAPs being
on one line. -/
theorem c90_associations {grp grp' : Addr → Bool} {t t' : AssocTable} (h : ∀ p ∈ t.asapAddrs, OneLine p.1)
    (h' : ∀ p ∈ t'.asapAddrs, OneLine p.1) :
    t.text grp = t'.text grp' ↔ t.asapAddrs.map (shownEntry grp) = t'.asapAddrs.map (shownEntry grp') ∧
      t.at_.ind.fs = t'.at_.ind.fs ∧ t.at_.maxSize = t'.at_.maxSize ∧ t.at_.gas.map Addr.fs = t'.at_.gas.map Addr.fs := by
  have hmap : ∀ {l l' : List (Asap × List Addr)}, l.map (assocEntry grp) = l'.map (assocEntry grp') ↔
      l.map (shownEntry grp) = l'.map (shownEntry grp') := by
    intro l
    induction l with
    | nil => intro l'; cases l' <;> simp
    | cons p l ih =>
      intro l'
      cases l' with
      | nil => simp
      | cons q l' => rw [List.map_cons, List.map_cons, List.map_cons, List.map_cons, List.cons.injEq, List.cons.injEq, ih, assocEntry_eq]
  have hn : ∀ {grp : Addr → Bool} {t : AssocTable}, (∀ p ∈ t.asapAddrs, OneLine p.1) →
      ∀ l ∈ t.asapAddrs.map (assocEntry grp), '\n' ∉ l ∧ l.head? = some ' ' := by
    intro grp t h l hl
    obtain ⟨p, hp, rfl⟩ := List.mem_map.1 hl
    refine ⟨?_, rfl⟩
    unfold assocEntry
    have : '\n' ∉ addrItems grp p.2 := fun hc => (addrItems_free grp p.2 _ hc).2 rfl
    simp [newline_asapText (h p hp), this]
  have hat : ∀ t : AddressTable, ∃ c u, t.text = c :: u ∧ c ≠ ' ' := by
    intro t
    exact ⟨'A', _, rfl, by decide⟩
  rw [← hmap, ← c70_table_inj, assocText_lines, assocText_lines]
  constructor
  · intro he
    have he' : unlines (t.asapAddrs.map (assocEntry grp)) ++ t.at_.text =
        unlines (t'.asapAddrs.map (assocEntry grp')) ++ t'.at_.text := by
      unfold unlines at he ⊢
      simp only [List.flatMap_cons, List.append_assoc] at he
      exact List.append_cancel_left (List.append_cancel_left he)
    exact lines_unique (hn h) (hn h') (hat _) (hat _) he'
  · rintro ⟨h1, h2⟩
    rw [h1, h2]

/-! ## What tables with the same text do -/

theorem tsap_of_shown {t t' : AddressTable} (hi : t.ind.fs = t'.ind.fs) (hg : t.gas.map Addr.fs = t'.gas.map Addr.fs)
    {a a' : Addr} (ha : a.fs = a'.fs) : t.getTsap a = t'.getTsap a' := by
  have hx : ∀ l l' : List Addr, l.map Addr.fs = l'.map Addr.fs → AddressTable.index l a = AddressTable.index l' a' := by
    intro l
    induction l with
    | nil =>
      intro l' h
      cases l' with
      | nil => rfl
      | cons x l' => cases h
    | cons y l ih =>
      intro l' h
      cases l' with
      | nil => cases h
      | cons x l' =>
        simp only [List.map_cons, List.cons.injEq] at h
        unfold AddressTable.index
        rw [ih l' h.2, show y.eq a = x.eq a' by simp [Addr.eq, h.1, ha]]
  unfold AddressTable.getTsap
  rw [hx _ _ hg, show a.eq t.ind = a'.eq t'.ind by simp [Addr.eq, ha, hi]]

theorem address_of_shown {t t' : AddressTable} (hi : t.ind.fs = t'.ind.fs) (hg : t.gas.map Addr.fs = t'.gas.map Addr.fs)
    (n : Int) : (t.getAddress n).map Addr.fs = (t'.getAddress n).map Addr.fs := by
  unfold AddressTable.getAddress
  split_ifs
  · have h := congrArg (fun l => l[(n - 1).toNat]?) hg
    simp only [List.getElem?_map] at h
    cases h1 : t.gas[(n - 1).toNat]? <;> cases h2 : t'.gas[(n - 1).toNat]? <;> rw [h1, h2] at h <;> simp at h <;>
      simp [Except.map, h]
  · simp [Except.map, hi]

theorem addresses_of_shown {t t' : AssocTable} (hi : t.at_.ind.fs = t'.at_.ind.fs)
    (hg : t.at_.gas.map Addr.fs = t'.at_.gas.map Addr.fs) (ts : List (Option Nat)) :
    (t.getAddresses ts).map (·.map Addr.fs) = (t'.getAddresses ts).map (·.map Addr.fs) := by
  induction ts with
  | nil => rfl
  | cons x ts ih =>
    cases x with
    | none => rfl
    | some n =>
      unfold AssocTable.getAddresses
      have h1 := address_of_shown hi hg n
      cases ha : t.at_.getAddress n <;> cases ha' : t'.at_.getAddress n <;> rw [ha, ha'] at h1 <;> simp [Except.map] at h1
      · simp [Except.map, h1]
      · cases hb : t.getAddresses ts <;> cases hb' : t'.getAddresses ts <;> rw [hb, hb'] at ih <;>
          simp [Except.map] at ih <;> simp [Except.map, ih, h1]

/-- Two dictionaries with the same shown entries. -/
theorem dict_of_shown {grp grp' : Addr → Bool} {asap asap' : Asap} (hv : asap.value = asap'.value) :
    ∀ {d d' : List (Asap × List Addr)}, d.map (shownEntry grp) = d'.map (shownEntry grp') →
      (dictGet Asap.eq d asap).map (·.map Addr.fs) = (dictGet Asap.eq d' asap').map (·.map Addr.fs) := by
  intro d
  induction d with
  | nil =>
    intro d' h
    cases d' with
    | nil => rfl
    | cons q d' => cases h
  | cons p d ih =>
    intro d' h
    cases d' with
    | nil => cases h
    | cons q d' =>
      simp only [List.map_cons, List.cons.injEq] at h
      obtain ⟨h1, h2⟩ := h
      simp only [shownEntry, Prod.mk.injEq] at h1
      unfold dictGet
      rw [show Asap.eq p.1 asap = Asap.eq q.1 asap' by simp [Asap.eq, h1.1, hv]]
      have h3 : p.2.map Addr.fs = q.2.map Addr.fs := by
        have := congrArg (List.map Prod.snd) h1.2.2
        rw [List.map_map, List.map_map] at this
        exact this
      split_ifs
      · simp [h3]
      · exact ih h2

/-- Two indexes that list the same ASAP values. -/
def SameIndex (d d' : List (Option Nat × List Asap)) : Prop :=
  d.map (fun p => (p.1, p.2.map Asap.value)) = d'.map fun p => (p.1, p.2.map Asap.value)

theorem index_get {k : Option Nat} : ∀ {d d' : List (Option Nat × List Asap)}, SameIndex d d' →
    (dictGet (· == ·) d k).map (·.map Asap.value) = (dictGet (· == ·) d' k).map (·.map Asap.value) := by
  intro d
  induction d with
  | nil =>
    intro d' h
    cases d' with
    | nil => rfl
    | cons q d' => cases h
  | cons p d ih =>
    intro d' h
    cases d' with
    | nil => cases h
    | cons q d' =>
      obtain ⟨k1, l1⟩ := p
      obtain ⟨k2, l2⟩ := q
      simp only [SameIndex, List.map_cons, List.cons.injEq, Prod.mk.injEq] at h
      obtain ⟨⟨rfl, h1⟩, h2⟩ := h
      unfold dictGet
      split_ifs
      · simp [h1]
      · exact ih h2

theorem index_set {k : Option Nat} {v v' : List Asap} (hv : v.map Asap.value = v'.map Asap.value) :
    ∀ {d d' : List (Option Nat × List Asap)}, SameIndex d d' →
      SameIndex (dictSet (· == ·) d k v) (dictSet (· == ·) d' k v') := by
  intro d
  induction d with
  | nil =>
    intro d' h
    cases d' with
    | nil => simp [SameIndex, dictSet, hv]
    | cons q d' => cases h
  | cons p d ih =>
    intro d' h
    cases d' with
    | nil => cases h
    | cons q d' =>
      obtain ⟨k1, l1⟩ := p
      obtain ⟨k2, l2⟩ := q
      simp only [SameIndex, List.map_cons, List.cons.injEq, Prod.mk.injEq] at h
      obtain ⟨⟨rfl, h1⟩, h2⟩ := h
      unfold dictSet
      have h3 := ih h2
      unfold SameIndex at h3 ⊢
      split_ifs
      · simp only [List.map_cons, hv, h2]
      · simp only [List.map_cons, h1, h3]

theorem index_step {t t' : AddressTable} {p q : Asap} (hv : p.value = q.value) {a a' : Addr}
    (ht : t.getTsap a = t'.getTsap a') {d d' : List (Option Nat × List Asap)} (h : SameIndex d d') :
    SameIndex (AssocTable.rebuildStep t p d a) (AssocTable.rebuildStep t' q d' a') := by
  unfold AssocTable.rebuildStep
  simp only
  have h1 := index_get (k := t'.getTsap a') h
  rw [ht]
  cases hx : dictGet (· == ·) d (t'.getTsap a') <;> cases hx' : dictGet (· == ·) d' (t'.getTsap a') <;> rw [hx, hx'] at h1 <;>
    simp only [Option.map_none, Option.map_some, reduceCtorEq, Option.some.injEq] at h1
  · exact index_set (by simp [hv]) h
  · exact index_set (by simp [hv, h1]) h

theorem index_of_shown {grp grp' : Addr → Bool} {t t' : AddressTable} (hi : t.ind.fs = t'.ind.fs)
    (hg : t.gas.map Addr.fs = t'.gas.map Addr.fs) : ∀ {l l' : List (Asap × List Addr)}, l.map (shownEntry grp) = l'.map (shownEntry grp') →
    ∀ {d d' : List (Option Nat × List Asap)}, SameIndex d d' →
      SameIndex (l.foldl (fun d p => p.2.foldl (AssocTable.rebuildStep t p.1) d) d)
        (l'.foldl (fun d p => p.2.foldl (AssocTable.rebuildStep t' p.1) d) d') := by
  have inner : ∀ {p q : Asap}, p.value = q.value → ∀ {l l' : List Addr}, l.map Addr.fs = l'.map Addr.fs →
      ∀ {d d' : List (Option Nat × List Asap)}, SameIndex d d' →
        SameIndex (l.foldl (AssocTable.rebuildStep t p) d) (l'.foldl (AssocTable.rebuildStep t' q) d') := by
    intro p q hv l
    induction l with
    | nil =>
      intro l' h d d' hd
      cases l' with
      | nil => exact hd
      | cons x l' => cases h
    | cons a l ih =>
      intro l' h d d' hd
      cases l' with
      | nil => cases h
      | cons x l' =>
        simp only [List.map_cons, List.cons.injEq] at h
        exact ih h.2 (index_step hv (tsap_of_shown hi hg h.1) hd)
  intro l
  induction l with
  | nil =>
    intro l' h d d' hd
    cases l' with
    | nil => exact hd
    | cons x l' => cases h
  | cons p l ih =>
    intro l' h d d' hd
    cases l' with
    | nil => cases h
    | cons q l' =>
      simp only [List.map_cons, List.cons.injEq] at h
      obtain ⟨h1, h2⟩ := h
      simp only [shownEntry, Prod.mk.injEq] at h1
      have h3 : p.2.map Addr.fs = q.2.map Addr.fs := by
        have := congrArg (List.map Prod.snd) h1.2.2
        rw [List.map_map, List.map_map] at this
        exact this
      exact ih h2 (inner h1.1 h3 hd)

/-- C90: association tables with the same text do the same, if their last call succeeded and the names of the ASAPs are on
one line: they send to the same addresses and list the same ASAP values for every address. -/
theorem c90_same_partial {grp grp' : Addr → Bool} {t t' : AssocTable} (h : ∀ p ∈ t.asapAddrs, OneLine p.1)
    (h' : ∀ p ∈ t'.asapAddrs, OneLine p.1) (hb : t.rebuild = t) (hb' : t'.rebuild = t') (he : t.text grp = t'.text grp') :
    (∀ asap asap' : Asap, asap.value = asap'.value → t.sendAddresses asap = t'.sendAddresses asap') ∧
    ∀ a a' : Addr, a.fs = a'.fs → (t.getAsapsFromAddress a).map (·.map Asap.value) =
      (t'.getAsapsFromAddress a').map (·.map Asap.value) := by
  obtain ⟨h1, h2, -, h3⟩ := (c90_associations h h').1 he
  constructor
  · intro asap asap' hv
    have hd := dict_of_shown hv h1
    unfold AssocTable.sendAddresses AssocTable.getTsaps
    cases hx : dictGet Asap.eq t.asapAddrs asap <;> cases hx' : dictGet Asap.eq t'.asapAddrs asap' <;> rw [hx, hx'] at hd <;>
      simp only [Option.map_none, Option.map_some, reduceCtorEq, Option.some.injEq] at hd
    rename_i l l'
    have hts : l.map t.at_.getTsap = l'.map t'.at_.getTsap := by
      clear hx hx'
      induction l generalizing l' with
      | nil =>
        cases l' with
        | nil => rfl
        | cons x l' => cases hd
      | cons a l ih =>
        cases l' with
        | nil => cases hd
        | cons x l' =>
          simp only [List.map_cons, List.cons.injEq] at hd ⊢
          exact ⟨tsap_of_shown h2 h3 hd.1, ih _ hd.2⟩
    simp only [hts]
    have ha := addresses_of_shown h2 h3 (l'.map t'.at_.getTsap)
    cases hy : t.getAddresses (l'.map t'.at_.getTsap) <;> cases hy' : t'.getAddresses (l'.map t'.at_.getTsap) <;>
      rw [hy, hy'] at ha <;> simp [Except.map] at ha <;> simp [ha]
  · intro a a' ha
    have hi : SameIndex t.tsapAsaps t'.tsapAsaps := by
      have e1 := congrArg AssocTable.tsapAsaps hb
      have e2 := congrArg AssocTable.tsapAsaps hb'
      rw [← e1, ← e2]
      exact index_of_shown h2 h3 h1 rfl
    unfold AssocTable.getAsapsFromAddress AssocTable.getAsaps
    rw [tsap_of_shown h2 h3 ha]
    have := index_get (k := t'.at_.getTsap a') hi
    cases hx : dictGet (· == ·) t.tsapAsaps (t'.at_.getTsap a') <;> cases hx' : dictGet (· == ·) t'.tsapAsaps (t'.at_.getTsap a') <;>
      rw [hx, hx'] at this <;> simp at this <;> simp [Except.map, this]

/-- C90: so do any two tables made and changed by successful calls. -/
theorem c90_history_partial {grp grp' : Addr → Bool} (at_ at' : AddressTable) (ops ops' : List AssocTable.Op)
    (hops : ∀ op ∈ ops, op.Proper at_.ind) (hops' : ∀ op ∈ ops', op.Proper at'.ind) (h : AllOk (AssocTable.init at_ []).2 ops)
    (h' : AllOk (AssocTable.init at' []).2 ops') :
    let t := (AssocTable.init at_ []).2.afterAll ops
    let t' := (AssocTable.init at' []).2.afterAll ops'
    (∀ p ∈ t.asapAddrs, OneLine p.1) → (∀ p ∈ t'.asapAddrs, OneLine p.1) → t.text grp = t'.text grp' →
    (∀ asap asap' : Asap, asap.value = asap'.value → t.sendAddresses asap = t'.sendAddresses asap') ∧
    ∀ a a' : Addr, a.fs = a'.fs → (t.getAsapsFromAddress a).map (·.map Asap.value) =
      (t'.getAsapsFromAddress a').map (·.map Asap.value) := by
  intro t t' hn hn' he
  have key : ∀ (at_ : AddressTable) (ops : List AssocTable.Op), (∀ op ∈ ops, op.Proper at_.ind) →
      AllOk (AssocTable.init at_ []).2 ops → ((AssocTable.init at_ []).2.afterAll ops).rebuild = (AssocTable.init at_ []).2.afterAll ops := by
    intro at_ ops hops h
    obtain ⟨-, hat, -, hb⟩ := init_fresh at_
    exact (history_ok hb (by rw [hat]; exact hops) h).2.1
  exact c90_same_partial hn hn' (key at_ ops hops h) (key at' ops' hops' h') he

/-- C90 is false of tables whose last call raised: such a table gives telegrams to the wrong ASAP, and has the same text as
the table after one more call that changes nothing else and puts that right. -/
theorem c90_stale_refuted : ∃ (ops : List AssocTable.Op) (a : Addr),
    let t := (AssocTable.init exAt []).2.afterAll ops
    let t' := t.afterAll [.associate ⟨1, none⟩ []]
    (∀ grp, t'.text grp = t.text grp) ∧ t.getAsapsFromAddress a = .ok [⟨1, none⟩] ∧
    t'.getAsapsFromAddress a = .ok [⟨2, none⟩] :=
  ⟨[.associate ⟨1, none⟩ [⟨1, 0x0001⟩], .associate ⟨2, none⟩ [⟨2, 0x0002⟩], .disassociate ⟨1, none⟩ [⟨3, 0x0001⟩, ⟨4, 0x0003⟩]],
    ⟨5, 0x0002⟩, fun _ => rfl, by decide, by decide⟩

/-- C90: if names of ASAPs may have line ends, any two group objects with names have the same text as one. -/
theorem c90_forged_refuted (v v' : Int) (n n' : String) (hn : n ≠ "") (hn' : n' ≠ "") (c c' : DptClass) :
    ∃ x : String, GroupObjectTable.text [(⟨v, some x⟩, c')] =
      GroupObjectTable.text [(⟨v, some n⟩, c), (⟨v', some n'⟩, c')] := by
  have hasap : ∀ (v : Int) (n : String), n ≠ "" → asapText ⟨v, some n⟩ = intText v ++ " (".toList ++ n.toList ++ ")".toList := by
    intro v n hn
    unfold asapText
    simp only [if_neg hn]
  let x : List Char := n.toList ++ ")".toList ++ " -> ".toList ++ c.name.toList ++ "\n".toList ++ "    ".toList ++ intText v' ++ " (".toList ++ n'.toList
  obtain ⟨y, hy⟩ : ∃ y : String, y.toList = x := ⟨String.ofList x, String.toList_ofList⟩
  have hne : y ≠ "" := by
    rintro rfl
    have hl := congrArg List.length hy
    simp only [x, List.length_append] at hl
    have : (")".toList).length = 1 := by decide
    have h0 : ("".toList).length = 0 := by decide
    omega
  refine ⟨y, ?_⟩
  unfold GroupObjectTable.text
  simp only [List.flatMap_cons, List.flatMap_nil, objectLine, hasap v y hne, hasap v n hn, hasap v' n' hn', hy, x,
    List.append_assoc, List.append_nil]

/-! ## Examples -/

example : GroupObjectTable.text [(⟨1, some "on/off light"⟩, .switch), (⟨3, none⟩, .valueTemp)] =
    "GroupObjectTable: ASAP -> datapointtype\n    1 (on/off light) -> DPT_Switch\n    3 -> DPT_Value_Temp\n".toList := by
  decide +kernel

/-- The README's table: 21/3/205 for two ASAPs, two more addresses for the third. -/
def exHome : AssocTable := (AssocTable.init (AddressTable.init ⟨0, 0x0001⟩ [] 255) []).2.afterAll
  [.associate ⟨1, some "on/off light"⟩ [⟨1, 0xABCD⟩], .associate ⟨2, some "info on/off light"⟩ [⟨1, 0xABCD⟩],
    .associate ⟨3, some "two temperature sensors (together)"⟩ [⟨2, 0xABCE⟩, ⟨3, 0xABCF⟩]]

example : exHome.text (fun a => a.oid ≠ 0) = "AssociationTable: asap -> addresses\n".toList ++
    "    0 (individual address) -> [0x0001]\n".toList ++
    "    1 (on/off light) -> [(0xABCD 21/973 21/3/205)]\n".toList ++
    "    2 (info on/off light) -> [(0xABCD 21/973 21/3/205)]\n".toList ++
    "    3 (two temperature sensors (together)) -> [(0xABCE 21/974 21/3/206), (0xABCF 21/975 21/3/207)]\n".toList ++
    "AddressTable: individual address: 0x0001, max_size=255\n\n".toList ++
    "    tsap -> individual address\n    0 -> 0x0001\n".toList ++
    "    tsap -> group address (hex_free_style two_level_style three_level_style)\n".toList ++
    "    1 -> (0xABCD 21/973 21/3/205)\n    2 -> (0xABCE 21/974 21/3/206)\n    3 -> (0xABCF 21/975 21/3/207)\n".toList := by
  have h : exHome.asapAddrs = [(⟨0, some "individual address"⟩, [⟨0, 0x0001⟩]), (⟨1, some "on/off light"⟩, [⟨1, 0xABCD⟩]),
      (⟨2, some "info on/off light"⟩, [⟨1, 0xABCD⟩]),
      (⟨3, some "two temperature sensors (together)"⟩, [⟨2, 0xABCE⟩, ⟨3, 0xABCF⟩])] := by decide +kernel
  have h' : exHome.at_ = ⟨255, ⟨0, 0x0001⟩, [⟨1, 0xABCD⟩, ⟨2, 0xABCE⟩, ⟨3, 0xABCF⟩]⟩ := by decide +kernel
  unfold AssocTable.text
  rw [h, h']
  decide +kernel

theorem oneLine_some {v : Int} {n : String} (h : '\n' ∉ n.toList) : OneLine ⟨v, some n⟩ := by
  intro m hm
  injection hm with hm
  exact hm ▸ h

example : GroupObjectTable.text [(⟨1, some "lamp"⟩, .switch), (⟨3, some ""⟩, .valueTemp)] =
      GroupObjectTable.text [(⟨1, some "lamp"⟩, .switch), (⟨3, none⟩, .valueTemp)] ∧
    GroupObjectTable.text [(⟨1, some "lamp"⟩, .switch), (⟨3, none⟩, .valueTemp)] ≠
      GroupObjectTable.text [(⟨3, none⟩, .valueTemp), (⟨1, some "lamp"⟩, .switch)] := by
  have h : ∀ g ∈ ([[(⟨1, some "lamp"⟩, .switch), (⟨3, some ""⟩, .valueTemp)], [(⟨1, some "lamp"⟩, .switch), (⟨3, none⟩, .valueTemp)],
      [(⟨3, none⟩, .valueTemp), (⟨1, some "lamp"⟩, .switch)]] : List GroupObjectTable), ∀ p ∈ g, OneLine p.1 := by
    have : ∀ g ∈ ([[(⟨1, some "lamp"⟩, .switch), (⟨3, some ""⟩, .valueTemp)], [(⟨1, some "lamp"⟩, .switch), (⟨3, none⟩, .valueTemp)],
        [(⟨3, none⟩, .valueTemp), (⟨1, some "lamp"⟩, .switch)]] : List GroupObjectTable), ∀ p ∈ g, ∀ n ∈ p.1.name, '\n' ∉ n.toList := by
      decide
    exact fun g hg p hp n hn => this g hg p hp n hn
  refine ⟨(c90_objects (h _ (by simp)) (h _ (by simp))).2 (by decide), fun he => ?_⟩
  exact absurd ((c90_objects (h _ (by simp)) (h _ (by simp))).1 he) (by decide)

theorem exHome_lines : ∀ p ∈ exHome.asapAddrs, OneLine p.1 := by
  have : ∀ p ∈ exHome.asapAddrs, ∀ n ∈ p.1.name, '\n' ∉ n.toList := by decide +kernel
  exact fun p hp n hn => this p hp n hn

/-- The same table made with other address objects. -/
def exHome' : AssocTable := (AssocTable.init (AddressTable.init ⟨7, 0x0001⟩ [⟨5, 0xABCF⟩, ⟨6, 0xABCE⟩] 255) []).2.afterAll
  [.associate ⟨1, some "on/off light"⟩ [⟨8, 0xABCD⟩], .associate ⟨2, some "info on/off light"⟩ [⟨9, 0xABCD⟩],
    .associate ⟨3, some "two temperature sensors (together)"⟩ [⟨2, 0xABCE⟩, ⟨3, 0xABCF⟩]]

example : exHome.text (fun a => a.oid ≠ 0) = exHome'.text (fun a => a.oid ≠ 7) ∧
    exHome.sendAddresses ⟨3, none⟩ = exHome'.sendAddresses ⟨3, none⟩ := by
  have hl : ∀ p ∈ exHome'.asapAddrs, OneLine p.1 := by
    have : ∀ p ∈ exHome'.asapAddrs, ∀ n ∈ p.1.name, '\n' ∉ n.toList := by decide +kernel
    exact fun p hp n hn => this p hp n hn
  have ht := (c90_associations (grp := fun a => a.oid ≠ 0) (grp' := fun a => a.oid ≠ 7) exHome_lines hl).2
    ⟨by decide +kernel, by decide +kernel, by decide +kernel, by decide +kernel⟩
  exact ⟨ht, (c90_history_partial _ _ _ _ (by decide) (by decide) (by decide +kernel) (by decide +kernel)
    exHome_lines hl ht).1 _ _ rfl⟩

example : (exHome.getAsapsFromAddress ⟨9, 0xABCD⟩).map (·.map Asap.value) = (exHome.getAsapsFromAddress ⟨4, 0xABCD⟩).map (·.map Asap.value) :=
  (c90_same_partial exHome_lines exHome_lines (by decide +kernel) (by decide +kernel) (grp := fun _ => true) (grp' := fun _ => true) rfl).2
    _ _ rfl

example : ∃ x : String, GroupObjectTable.text [(⟨1, some x⟩, .valueTemp)] =
    GroupObjectTable.text [(⟨1, some "lamp"⟩, .switch), (⟨2, some "garden"⟩, .valueTemp)] :=
  c90_forged_refuted 1 2 "lamp" "garden" (by decide) (by decide) .switch .valueTemp

end Knx
