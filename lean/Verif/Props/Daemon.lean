import Verif.Spec.Daemon
import Verif.Lemmas.Text
import Verif.Props.Text
import Verif.Props.Client

/-! # The USB daemon: C50, C51, C53 -/

namespace Knx
open Spec Daemon

instance (d : Dmn) : (e : Daemon.Event) → Decidable (Possible d e)
  | .accept fd => inferInstanceAs (Decidable (0 < fd ∧ fd ∉ d.active))
  | .report data => inferInstanceAs (Decidable (data.length ≤ packetLen))
  | .input fd none _ => decidable_of_iff (fd ∈ d.active) (by simp [Possible])
  | .input fd (some s) _ => decidable_of_iff (fd ∈ d.active ∧ s.length ≤ packetLen * 2 + 1) (by simp [Possible])

instance decidablePossibleAll (zx : Option Byte) : (d : Dmn) → (es : List Daemon.Event) →
    Decidable (PossibleAll zx d es)
  | _, [] => .isTrue trivial
  | d, e :: es =>
    have := decidablePossibleAll zx (Daemon.step zx d e) es
    inferInstanceAs (Decidable (Possible d e ∧ PossibleAll zx (Daemon.step zx d e) es))

/-! ## Lines -/

theorem hexText_length {s : List Char} {m : Msg} (h : HexText s m) : s.length = 2 * m.length := by
  induction m generalizing s with
  | nil =>
    rcases s with _ | ⟨c, _ | ⟨d, s⟩⟩
    · rfl
    · exact h.elim
    · exact h.elim
  | cons b m ih =>
    match s, h with
    | c :: d :: s, h =>
      have := ih h.2.2
      simp only [List.length_cons, this]
      omega

theorem hexText_digits {s : List Char} {m : Msg} (h : HexText s m) : ∀ c ∈ s, IsHex c := by
  induction m generalizing s with
  | nil =>
    rcases s with _ | ⟨c, _ | ⟨d, s⟩⟩
    · exact fun c hc => by cases hc
    · exact h.elim
    · exact h.elim
  | cons b m ih =>
    match s, h with
    | c :: d :: s, h =>
      intro x hx
      simp only [List.mem_cons] at hx
      rcases hx with rfl | rfl | hx
      · exact ⟨_, h.1⟩
      · exact ⟨_, h.2.1⟩
      · exact ih h.2.2 x hx

theorem chomp_end {s : List Char} {c : Char} (h : c = '\n' ∨ c = '\r') : chomp (s ++ [c]) = s := by
  unfold chomp
  rw [List.getLast?_concat]
  simp only
  rw [if_pos h, List.dropLast_concat]

theorem chomp_hex {s : List Char} (h : ∀ c ∈ s, IsHex c) : chomp s = s := by
  unfold chomp
  rcases hl : s.getLast? with _ | c
  · rfl
  · simp only
    have hc := h c (List.mem_of_getLast? hl)
    rw [if_neg]
    rintro (rfl | rfl)
    · exact absurd hc (by decide)
    · exact absurd hc (by decide)

theorem chomp_line {s e : List Char} (h : ∀ c ∈ s, IsHex c) (he : LineEnd e) : chomp (chomp (s ++ e)) = s := by
  simp only [LineEnd, List.mem_cons, List.not_mem_nil, or_false] at he
  rcases he with rfl | rfl | rfl | rfl
  · rw [List.append_nil, chomp_hex h, chomp_hex h]
  · rw [chomp_end (.inl rfl), chomp_hex h]
  · rw [chomp_end (.inr rfl), chomp_hex h]
  · rw [show s ++ ['\r', '\n'] = (s ++ ['\r']) ++ ['\n'] by simp, chomp_end (.inl rfl), chomp_end (.inr rfl)]

theorem convert_length (zx : Option Byte) (n i : Nat) (s : List Char) (p : List Byte) :
    (convert zx n i s p).2.2.length = p.length := by
  induction n generalizing i s p with
  | zero => rfl
  | succ n ih =>
    unfold convert
    rcases scan zx s with _ | b
    · rfl
    · simp only
      rw [ih, List.length_set]

theorem convert_overflow (zx : Option Byte) (n i : Nat) (s : List Char) (p : List Byte)
    (h : i + n ≤ packetLen) : (convert zx n i s p).2.1 = false := by
  induction n generalizing i s p with
  | zero => rfl
  | succ n ih =>
    unfold convert
    rcases scan zx s with _ | b
    · rfl
    · simp only
      rw [ih (i + 1) (s.drop 2) (p.set i b) (by omega)]
      simp only [Bool.false_or, decide_eq_false_iff_not]
      omega

theorem cString_cons {c : Char} (h : IsHex c) (s : List Char) : cString (c :: s) = c :: cString s := by
  have : c ≠ '\x00' := by
    rintro rfl
    exact absurd h (by decide)
  simp [cString, this]

theorem hex_graphic {c : Char} (h : IsHex c) : isSpace c = false ∧ ¬ (c = '+' ∨ c = '-') ∧ ¬ (c = 'x' ∨ c = 'X') := by
  refine ⟨?_, ?_, ?_⟩
  · by_contra hs
    simp only [isSpace, Bool.not_eq_false, decide_eq_true_eq] at hs
    rcases hs with rfl | rfl | rfl | rfl | rfl | rfl <;> exact absurd h (by decide)
  · rintro (rfl | rfl) <;> exact absurd h (by decide)
  · rintro (rfl | rfl) <;> exact absurd h (by decide)

/-- Two hex digits give their value, whatever follows. -/
theorem scan_hex (zx : Option Byte) {c d : Char} {h l : Nat} (hc : hexVal c = some h) (hd : hexVal d = some l)
    (s : List Char) : scan zx (c :: d :: s) = some (byte (16 * h + l)) := by
  have ic : IsHex c := ⟨h, (hexVal_some_iff _ _).1 hc⟩
  have id : IsHex d := ⟨l, (hexVal_some_iff _ _).1 hd⟩
  unfold scan
  rw [cString_cons ic, cString_cons id, List.dropWhile_cons_of_neg (by simp [(hex_graphic ic).1])]
  simp only [hc, hd]
  rw [if_neg (hex_graphic ic).2.1, if_neg (fun e => (hex_graphic id).2.2 e.2)]

theorem convert_hex (zx : Option Byte) {s : List Char} {m : Msg} (h : HexText s m) (rest : List Char)
    (done tail : List Byte) (ht : m.length ≤ tail.length) :
    (convert zx m.length done.length (s ++ rest) (done ++ tail)).1 = true ∧
    (convert zx m.length done.length (s ++ rest) (done ++ tail)).2.2 = done ++ m ++ tail.drop m.length := by
  induction m generalizing s done tail with
  | nil => exact ⟨rfl, by simp [convert]⟩
  | cons b m ih =>
    match s, h with
    | c :: d :: s, h =>
      rcases tail with _ | ⟨t, tail⟩
      · simp at ht
      have hs : scan zx (c :: d :: (s ++ rest)) = some b := by
        rw [scan_hex zx ((hexVal_some_iff _ _).2 h.1) ((hexVal_some_iff _ _).2 h.2.1)]
        simp only [Option.some.injEq]
        apply BitVec.eq_of_toNat_eq
        rw [byte_toNat]
        have := b.isLt
        omega
      have hp : (done ++ t :: tail).set done.length b = (done ++ [b]) ++ tail := by
        rw [List.set_append_right _ _ (le_refl _)]
        simp
      have hi := ih h.2.2 (done ++ [b]) tail (by simpa using ht)
      rw [List.length_append] at hi
      simp only [List.length_cons, List.length_nil, Nat.zero_add] at hi
      simp only [List.length_cons, List.cons_append]
      unfold convert
      rw [hs]
      simp only [List.drop_succ_cons, List.drop_zero]
      rw [hp]
      exact ⟨hi.1, by rw [hi.2]; simp⟩

theorem readFromClient_length (zx : Option Byte) (input : Option (List Char)) (st : List Char) (p : List Byte) :
    (readFromClient zx input st p).2.2.length = p.length := by
  unfold readFromClient
  split
  · rfl
  · rfl
  · simp only
    split_ifs
    · rfl
    · rename_i s _ _
      have h := convert_length zx ((chomp (chomp s)).length / 2) 0 (s ++ st) p
      generalize convert zx ((chomp (chomp s)).length / 2) 0 (s ++ st) p = x at h
      rcases x with ⟨_ | _, o, q⟩ <;> exact h

theorem chomp_le (s : List Char) : (chomp s).length ≤ s.length := by
  unfold chomp
  split
  · exact le_refl _
  · split_ifs
    · simp
    · exact le_refl _

theorem readFromClient_overflow (zx : Option Byte) (input : Option (List Char)) (st : List Char) (p : List Byte)
    (h : ∀ s, input = some s → s.length ≤ packetLen * 2 + 1) : (readFromClient zx input st p).2.1 = false := by
  unfold readFromClient
  split
  · rfl
  · rfl
  · rename_i s _
    have hs := h s rfl
    have h1 := chomp_le (chomp s)
    have h2 := chomp_le s
    have ho : decide (packetLen * 2 + 1 < s.length) = false := by simpa using hs
    simp only [ho]
    split_ifs
    · rfl
    · have h := convert_overflow zx ((chomp (chomp s)).length / 2) 0 (s ++ st) p (by omega)
      generalize convert zx ((chomp (chomp s)).length / 2) 0 (s ++ st) p = x at h
      rcases x with ⟨_ | _, o, q⟩ <;> simpa using h

theorem readFromClient_closes (zx : Option Byte) (input : Option (List Char)) (st : List Char) (p : List Byte) :
    (readFromClient zx input st p).1 ≥ 0 ↔ input ≠ none ∧ input ≠ some [] := by
  unfold readFromClient
  split
  · simp
  · simp
  · rename_i s hs
    simp only
    split_ifs
    · exact ⟨fun _ => ⟨nofun, fun h => hs (Option.some.inj h)⟩, fun _ => le_refl _⟩
    · generalize convert zx ((chomp (chomp s)).length / 2) 0 (s ++ st) p = x
      rcases x with ⟨_ | _, o, q⟩
      · exact ⟨fun _ => ⟨nofun, fun h => hs (Option.some.inj h)⟩, fun _ => le_refl _⟩
      · exact ⟨fun _ => ⟨nofun, fun h => hs (Option.some.inj h)⟩, fun _ => by simp only; omega⟩

/-! ## The client table -/

theorem fillSlot_full (fd : Nat) {l : List (Option Nat)} (h : none ∉ l) : fillSlot fd l = l := by
  induction l with
  | nil => rfl
  | cons x l ih =>
    rcases x with _ | f
    · exact absurd List.mem_cons_self h
    · unfold fillSlot
      rw [ih fun hn => h (List.mem_cons_of_mem _ hn)]

theorem fillSlot_free (fd : Nat) {l : List (Option Nat)} (h : none ∈ l) :
    ((fillSlot fd l).filterMap id).Perm (fd :: l.filterMap id) := by
  induction l with
  | nil => cases h
  | cons x l ih =>
    rcases x with _ | f
    · simp [fillSlot]
    · have hn : none ∈ l := by simpa using h
      simp only [fillSlot, List.filterMap_cons, id_eq]
      exact ((ih hn).cons f).trans (List.Perm.swap fd f _)

theorem fillSlot_length (fd : Nat) (l : List (Option Nat)) : (fillSlot fd l).length = l.length := by
  induction l with
  | nil => rfl
  | cons x l ih =>
    rcases x with _ | f
    · rfl
    · simp only [fillSlot, List.length_cons, ih]

theorem clearSlot_erase (fd : Nat) (l : List (Option Nat)) :
    (clearSlot fd l).filterMap id = (l.filterMap id).erase fd := by
  induction l with
  | nil => rfl
  | cons x l ih =>
    rcases x with _ | f
    · simpa [clearSlot] using ih
    · simp only [clearSlot, List.filterMap_cons, id_eq]
      split_ifs with hf
      · subst hf
        simp
      · rw [List.erase_cons_tail (by simpa using hf)]
        exact congrArg (f :: ·) ih

theorem clearSlot_length (fd : Nat) (l : List (Option Nat)) : (clearSlot fd l).length = l.length := by
  induction l with
  | nil => rfl
  | cons x l ih =>
    rcases x with _ | f
    · simp [clearSlot, ih]
    · simp only [clearSlot]
      split_ifs
      · rfl
      · simp [ih]

theorem free_slot {l : List (Option Nat)} (h : (l.filterMap id).length < l.length) : none ∈ l := by
  induction l with
  | nil => simp at h
  | cons x l ih =>
    rcases x with _ | f
    · exact List.mem_cons_self
    · exact List.mem_cons_of_mem _ (ih (by simpa using h))

/-- What holds of the daemon when the clients `l` are connected. -/
structure Holds (d : Dmn) (l : List Nat) : Prop where
  active : d.active = l
  nodup : l.Nodup
  pos : ∀ fd ∈ l, 0 < fd
  slots : d.slots.length = maxClients
  table : (inTable d).Nodup
  sub : ∀ fd ∈ inTable d, fd ∈ l
  packet : d.packet.length = packetLen
  safe : d.overflow = false

theorem step_input (zx : Option Byte) (d : Dmn) (fd : Nat) (x : Option (List Char)) (st : List Char) :
    Daemon.step zx d (.input fd x st) =
      if x ≠ none ∧ x ≠ some [] then
        { d with
          packet := (readFromClient zx x st d.packet).2.2
          overflow := d.overflow || (readFromClient zx x st d.packet).2.1
          device := d.device ++ [(readFromClient zx x st d.packet).2.2.take packetLen] }
      else
        { d with
          packet := (readFromClient zx x st d.packet).2.2
          overflow := d.overflow || (readFromClient zx x st d.packet).2.1
          active := d.active.erase fd
          slots := clearSlot fd d.slots } := by
  have h := readFromClient_closes zx x st d.packet
  simp only [Daemon.step]
  by_cases hx : x ≠ none ∧ x ≠ some []
  · rw [if_pos hx, if_pos (h.2 hx)]
  · rw [if_neg hx, if_neg (fun hr => hx (h.1 hr))]

theorem holds_init {packet : List Byte} (h : packet.length = packetLen) : Holds (Daemon.init packet) [] where
  active := rfl
  nodup := List.nodup_nil
  pos := nofun
  slots := by simp [Daemon.init]
  table := by simp [inTable, Daemon.init]
  sub := by simp [inTable, Daemon.init]
  packet := h
  safe := rfl

theorem clientsFrom_append (l : List Nat) (es es' : List Daemon.Event) :
    clientsFrom l (es ++ es') = clientsFrom (clientsFrom l es) es' := by
  induction es generalizing l with
  | nil => rfl
  | cons e es ih =>
    rcases e with fd | r | ⟨fd, _ | _ | s, st⟩ <;> exact ih _

theorem holds_step (zx : Option Byte) {d : Dmn} {l : List Nat} (h : Holds d l) {e : Daemon.Event}
    (he : Possible d e) : Holds (Daemon.step zx d e) (clientsFrom l [e]) ∧
      (l.length < maxClients ∨ (∀ fd, e ≠ .accept fd) → (∀ fd ∈ l, fd ∈ inTable d) →
        ∀ fd ∈ clientsFrom l [e], fd ∈ inTable (Daemon.step zx d e)) := by
  obtain ⟨h1, h2, h3, h4, h5, h6, h7, h8⟩ := h
  rcases e with fd | data | ⟨fd, x, st⟩
  · obtain ⟨hp, ha⟩ := he
    rw [h1] at ha
    simp only [Daemon.step, clientsFrom]
    by_cases hn : none ∈ d.slots
    · have hf := fillSlot_free fd hn
      refine ⟨⟨by simp [h1], by simp [ha, h2], by simpa [hp] using h3, by simp [fillSlot_length, h4], ?_, ?_, h7, h8⟩, ?_⟩
      · exact (hf.nodup_iff).2 (List.nodup_cons.2 ⟨fun hm => ha (h6 _ hm), h5⟩)
      · intro f hm
        rcases List.mem_cons.1 (hf.mem_iff.1 hm) with rfl | hm
        · exact List.mem_cons_self
        · exact List.mem_cons_of_mem _ (h6 _ hm)
      · intro _ hall f hm
        apply hf.mem_iff.2
        rcases List.mem_cons.1 hm with rfl | hm
        · exact List.mem_cons_self
        · exact List.mem_cons_of_mem _ (hall _ hm)
    · have hf := fillSlot_full fd hn
      refine ⟨⟨by simp [h1], by simp [ha, h2], by simpa [hp] using h3, by simp [fillSlot_length, h4], ?_, ?_, h7, h8⟩, ?_⟩
      · unfold inTable
        rw [hf]
        exact h5
      · unfold inTable
        rw [hf]
        exact fun f hm => List.mem_cons_of_mem _ (h6 _ hm)
      · rintro (hl | hc) _
        · have hle : (inTable d).length ≤ l.length := (List.subperm_of_subset h5 h6).length_le
          exact absurd (free_slot (by unfold inTable at hle; omega)) hn
        · exact absurd rfl (hc fd)
  · have hd : data.length ≤ packetLen := he
    refine ⟨⟨h1, h2, h3, h4, h5, h6, ?_, ?_⟩, fun _ hall => hall⟩
    · simp only [Daemon.step, overwrite, List.length_append, List.length_drop]
      omega
    · have hn : ¬ packetLen < data.length := by omega
      have hn' : ¬ packetLen * 2 < data.length * 2 := by omega
      simp [Daemon.step, clientOverflow, h8, hn, hn']
  · obtain ⟨ha, hs⟩ := he
    have hp := readFromClient_length zx x st d.packet
    have ho := readFromClient_overflow zx x st d.packet hs
    rw [step_input]
    split_ifs with hx
    · have hc : clientsFrom l [.input fd x st] = l := by
        rcases x with _ | _ | ⟨c, s⟩
        · exact absurd rfl hx.1
        · exact absurd rfl hx.2
        · rfl
      rw [hc]
      exact ⟨⟨h1, h2, h3, h4, h5, h6, hp.trans h7, by simp [h8, ho]⟩, fun _ hall => hall⟩
    · have hc : clientsFrom l [.input fd x st] = l.erase fd := by
        rcases x with _ | _ | ⟨c, s⟩
        · rfl
        · rfl
        · exact absurd ⟨nofun, nofun⟩ hx
      rw [hc]
      have ht : ∀ q o, inTable { d with packet := q, overflow := o, active := d.active.erase fd, slots := clearSlot fd d.slots } =
          (inTable d).erase fd := fun q o => clearSlot_erase fd d.slots
      refine ⟨⟨by simp [h1], h2.erase _, fun f hf => h3 f (List.mem_of_mem_erase hf), by simp [clearSlot_length, h4], ?_, ?_,
        hp.trans h7, by simp [h8, ho]⟩, ?_⟩
      · rw [ht]
        exact h5.erase _
      · rw [ht]
        intro f hf
        rw [h5.mem_erase_iff] at hf
        exact (h2.mem_erase_iff).2 ⟨hf.1, h6 _ hf.2⟩
      · intro _ hall f hf
        rw [ht]
        rw [h2.mem_erase_iff] at hf
        exact (h5.mem_erase_iff).2 ⟨hf.1, hall _ hf.2⟩

theorem run_cons (zx : Option Byte) (d : Dmn) (e : Daemon.Event) (es : List Daemon.Event) :
    Daemon.run zx d (e :: es) = Daemon.run zx (Daemon.step zx d e) es := rfl

theorem holds_run (zx : Option Byte) {d : Dmn} {l : List Nat} (h : Holds d l) {es : List Daemon.Event}
    (he : PossibleAll zx d es) : Holds (Daemon.run zx d es) (clientsFrom l es) := by
  induction es generalizing d l with
  | nil => exact h
  | cons e es ih =>
    rw [run_cons, show e :: es = [e] ++ es from rfl, clientsFrom_append]
    exact ih (holds_step zx h he.1).1 he.2

theorem holds_all (zx : Option Byte) {d : Dmn} {l : List Nat} (h : Holds d l) {es : List Daemon.Event}
    (he : PossibleAll zx d es) (hall : ∀ fd ∈ l, fd ∈ inTable d)
    (hn : ∀ es', es' <+: es → (clientsFrom l es').length ≤ maxClients) :
    ∀ fd ∈ clientsFrom l es, fd ∈ inTable (Daemon.run zx d es) := by
  induction es generalizing d l with
  | nil => exact hall
  | cons e es ih =>
    rw [run_cons, show e :: es = [e] ++ es from rfl, clientsFrom_append]
    obtain ⟨hs, hk⟩ := holds_step zx h he.1
    refine ih hs he.2 (hk ?_ hall) ?_
    · rcases e with fd | data | ⟨fd, x, st⟩
      · have := hn [.accept fd] (by simp)
        simp only [clientsFrom, List.length_cons] at this
        exact .inl (by omega)
      · exact .inr nofun
      · exact .inr nofun
    · intro es' hp
      rw [← clientsFrom_append]
      exact hn _ (by simpa using hp)

/-! ## C50 -/

/-- C50, as far as it holds: a line of hexadecimal text of at most 56 octets, read in one piece, makes the daemon write
one report that starts with the octets of the line. Missing from the full claim: every other text also makes the daemon
write a report (`c50_refuted`). -/
theorem c50_partial (zx : Option Byte) {packet : List Byte} (hp : packet.length = 56)
    {es : List Daemon.Event} (he : PossibleAll zx (Daemon.init packet) es) (fd : Nat) (st : List Char) {line e : List Char} {m : Msg}
    (hl : HexText line m) (hm : m.length ≤ 56) (hend : LineEnd e) (hne : line ++ e ≠ []) :
    ∃ report, (Daemon.run zx (Daemon.init packet) (es ++ [.input fd (some (line ++ e)) st])).device =
        (Daemon.run zx (Daemon.init packet) es).device ++ [report] ∧
      m <+: report ∧ report.length = 56 := by
  replace hm : m.length ≤ packetLen := hm
  have h := (holds_run zx (holds_init hp) he).packet
  unfold Daemon.run at h ⊢
  rw [List.foldl_append]
  simp only [List.foldl_cons, List.foldl_nil]
  generalize List.foldl (Daemon.step zx) (Daemon.init packet) es = d at h ⊢
  rw [step_input, if_pos ⟨nofun, fun hs => hne (Option.some.inj hs)⟩]
  have hr : (readFromClient zx (some (line ++ e)) st d.packet).2.2 = m ++ d.packet.drop m.length := by
    unfold readFromClient
    split
    · rename_i hs
      cases hs
    · rename_i hs
      exact absurd (Option.some.inj hs) hne
    · rename_i s hs hs'
      cases hs'
      simp only
      rw [chomp_line (hexText_digits hl) hend, hexText_length hl, if_neg (by omega),
        show 2 * m.length / 2 = m.length by omega]
      obtain ⟨h1, h2⟩ := convert_hex zx hl (e ++ st) [] d.packet (by omega)
      simp only [List.length_nil, List.nil_append] at h1 h2
      rw [List.append_assoc]
      generalize convert zx m.length 0 (line ++ (e ++ st)) d.packet = x at h1 h2
      rcases x with ⟨b, o, p⟩
      simp only at h1 h2
      subst h1
      exact h2
  rw [hr]
  have hlen : (m ++ d.packet.drop m.length).length = packetLen := by
    simp only [List.length_append, List.length_drop]
    omega
  refine ⟨m ++ d.packet.drop m.length, ?_, List.prefix_append _ _, hlen⟩
  rw [← hlen, List.take_length]

/-- Only client input makes the daemon write to the device, one report for each. -/
theorem c50_only (zx : Option Byte) (d : Dmn) (e : Daemon.Event) :
    (Daemon.step zx d e).device = d.device ∨
    ∃ fd c s st report, e = .input fd (some (c :: s)) st ∧ (Daemon.step zx d e).device = d.device ++ [report] := by
  rcases e with fd | data | ⟨fd, x, st⟩
  · exact .inl rfl
  · exact .inl rfl
  · rw [step_input]
    split_ifs with hx
    · rcases x with _ | _ | ⟨c, s⟩
      · exact absurd rfl hx.1
      · exact absurd rfl hx.2
      · exact .inr ⟨fd, c, s, st, _, rfl, rfl⟩
    · exact .inl rfl

/-- C50 is false: any text of odd length that does not end a line, sent when the device has just delivered a report of
56 octets, makes the daemon write this report back to the bus. -/
theorem c50_refuted (zx : Option Byte) (d : Dmn) {data : List Byte} (hd : data.length = 56)
    (fd : Nat) (st : List Char) {s : List Char} (hs : ∀ c ∈ s, c ≠ '\n' ∧ c ≠ '\r') (hodd : s.length % 2 = 1) :
    (Daemon.run zx d [.report data, .input fd (some s) st]).device = d.device ++ [data] ∧ ∀ m, ¬ HexText s m := by
  refine ⟨?_, fun m h => by have := hexText_length h; omega⟩
  have hc : chomp s = s := by
    unfold chomp
    rcases hl : s.getLast? with _ | c
    · rfl
    · have := hs c (List.mem_of_getLast? hl)
      simp only
      rw [if_neg (by rintro (h | h) <;> simp [h] at this)]
  rw [run_cons, run_cons]
  unfold Daemon.run
  rw [List.foldl_nil, step_input, if_pos ⟨nofun, by rintro ⟨⟩; simp at hodd⟩]
  have hr : ∀ p, (readFromClient zx (some s) st p).2.2 = p := by
    intro p
    unfold readFromClient
    split
    · rfl
    · rfl
    · rename_i s' _ hs'
      cases hs'
      simp only
      rw [hc, hc, if_pos (by omega)]
  simp only [hr]
  simp only [Daemon.step, overwrite]
  rw [← show data.length = packetLen from hd, List.take_left' rfl]

/-- The same for an empty line: the previous report is written again. -/
theorem c50_empty_refuted (zx : Option Byte) (d : Dmn) {data : List Byte} (hd : data.length = 56)
    (fd : Nat) (st : List Char) : (Daemon.run zx d [.report data, .input fd (some ['\n']) st]).device = d.device ++ [data] := by
  rw [run_cons, run_cons]
  unfold Daemon.run
  rw [List.foldl_nil, step_input, if_pos ⟨nofun, nofun⟩]
  have hr : ∀ p, (readFromClient zx (some ['\n']) st p).2.2 = p := fun p => by
    simp [readFromClient, chomp, convert]
  simp only [hr]
  simp only [Daemon.step, overwrite]
  rw [← show data.length = packetLen from hd, List.take_left' rfl]

/-- A report that starts with a line of 57 octets is never written: a read stops after 113 characters. -/
theorem c50_long_refuted (zx : Option Byte) (d : Dmn) (fd : Nat) (st : List Char) {s : List Char} (hs : ∀ c ∈ s, IsHex c)
    (hl : s.length = 113) :
    (Daemon.step zx d (.input fd (some s) st)).device = d.device ++ [d.packet.take 56] := by
  have hc := chomp_hex hs
  rw [step_input, if_pos ⟨nofun, by rintro ⟨⟩; simp at hl⟩]
  have hr : (readFromClient zx (some s) st d.packet).2.2 = d.packet := by
    unfold readFromClient
    split
    · rfl
    · rfl
    · rename_i s' _ hs'
      cases hs'
      simp only
      rw [hc, hc, if_pos (by rw [hl]; decide)]
  simp only [hr]
  rfl

example : ∃ report, (Daemon.run none (Daemon.init (List.replicate 56 0xEE))
      ([.accept 4, .report [1, 2, 3]] ++ [.input 4 (some ("0113fA".toList ++ ['\r', '\n'])) ['1', '2']])).device = [] ++ [report] ∧
    [0x01, 0x13, 0xFA] <+: report ∧ report.length = 56 :=
  c50_partial none (by decide) (es := [.accept 4, .report [1, 2, 3]]) (by decide) 4 ['1', '2'] (by decide) (by decide)
    (by decide) (by decide)

example : (Daemon.run none (Daemon.init (List.replicate 56 0)) [.report (List.replicate 56 0xAB),
    .input 4 (some "hello".toList) []]).device = [] ++ [List.replicate 56 0xAB] :=
  (c50_refuted _ _ (by decide) 4 [] (by decide) (by decide)).1

example := c50_only none (Daemon.init (List.replicate 56 0)) (.input 4 (some "0102\n".toList) [])

example : (Daemon.run none (Daemon.init (List.replicate 56 0)) [.report (List.replicate 56 0xAB), .input 4 (some ['\n']) []]).device =
    [] ++ [List.replicate 56 0xAB] := c50_empty_refuted _ _ (by decide) 4 []

example : (Daemon.step none (Daemon.init (List.replicate 56 7)) (.input 4 (some (List.replicate 113 'f')) [])).device =
    [] ++ [(List.replicate 56 7).take 56] := c50_long_refuted _ _ 4 [] (by decide) (by decide)

/-! ## C51 -/

/-- C51: a report of the device is sent, as text with a line end, to the clients of the table and to nobody else; nothing
else is sent to clients. -/
theorem c51_broadcast (zx : Option Byte) {packet : List Byte} (hp : packet.length = 56)
    {es : List Daemon.Event} (he : PossibleAll zx (Daemon.init packet) es) (data : List Byte) :
    ∃ line, HexText line data ∧ (∀ c ∈ line, c.isUpper = false) ∧
      (Daemon.run zx (Daemon.init packet) (es ++ [.report data])).sent =
        (Daemon.run zx (Daemon.init packet) es).sent ++
          (inTable (Daemon.run zx (Daemon.init packet) es)).map fun fd => (fd, line ++ ['\n']) := by
  have h := holds_run zx (holds_init hp) he
  unfold Daemon.run at h ⊢
  rw [List.foldl_append]
  simp only [List.foldl_cons, List.foldl_nil]
  generalize List.foldl (Daemon.step zx) (Daemon.init packet) es = d at h ⊢
  refine ⟨hexLower data, ?_, ?_, ?_⟩
  · clear h
    induction data with
    | nil => trivial
    | cons b m ih =>
      have hb := b.isLt
      exact ⟨hexDigitLower_spec (by omega), hexDigitLower_spec (by omega), ih⟩
  · intro c hc
    have key : ∀ n, n < 16 → (hexDigitLower n).isUpper = false := by decide
    simp only [hexLower, List.mem_flatMap, List.mem_cons, List.not_mem_nil, or_false] at hc
    obtain ⟨b, -, rfl | rfl⟩ := hc
    · exact key _ (by have := b.isLt; omega)
    · exact key _ (by omega)
  · have hf : ((inTable d).filter fun fd => decide (0 < fd)) = inTable d := by
      rw [List.filter_eq_self]
      exact fun fd hm => by simpa using h.pos fd (h.sub fd hm)
    simp only [Daemon.step, clientText, overwrite]
    rw [List.take_left' rfl]
    unfold inTable at hf ⊢
    rw [hf]

/-- Nothing but a report of the device is sent to clients. -/
theorem c51_only (zx : Option Byte) (d : Dmn) (e : Daemon.Event) (h : ∀ data, e ≠ .report data) :
    (Daemon.step zx d e).sent = d.sent := by
  rcases e with fd | data | ⟨fd, x, st⟩
  · rfl
  · exact absurd rfl (h data)
  · rw [step_input]
    split_ifs <;> rfl

/-- C51: the table holds connected clients only, each at most once. -/
theorem c51_table (zx : Option Byte) {packet : List Byte} (hp : packet.length = 56)
    {es : List Daemon.Event} (he : PossibleAll zx (Daemon.init packet) es) :
    (inTable (Daemon.run zx (Daemon.init packet) es)).Nodup ∧
    ∀ fd ∈ inTable (Daemon.run zx (Daemon.init packet) es), fd ∈ clients es :=
  have h := holds_run zx (holds_init hp) he
  ⟨h.table, h.sub⟩

/-- As long as there were never more than 64 clients at a time, the table holds exactly the connected clients. -/
theorem c51_all (zx : Option Byte) {packet : List Byte} (hp : packet.length = 56)
    {es : List Daemon.Event} (he : PossibleAll zx (Daemon.init packet) es)
    (hn : ∀ es', es' <+: es → (clients es').length ≤ 64) (fd : Nat) :
    fd ∈ inTable (Daemon.run zx (Daemon.init packet) es) ↔ fd ∈ clients es :=
  ⟨(c51_table zx hp he).2 fd, holds_all zx (holds_init hp) he nofun hn fd⟩

example : inTable (Daemon.run none (Daemon.init (List.replicate 56 0))
    [.accept 4, .accept 5, .input 4 (some []) [], .accept 6, .accept 4]) = [6, 5, 4] := by decide

example : (Daemon.run none (Daemon.init (List.replicate 56 0))
    [.accept 4, .accept 5, .input 4 none [], .report [0x1A, 0x00, 0xFF]]).sent = [(5, "1a00ff\n".toList)] := by decide

example : 4 ∈ inTable (Daemon.run none (Daemon.init (List.replicate 56 0))
    [.accept 4, .accept 5, .input 5 (some []) [], .accept 6]) :=
  (c51_all none (by decide) (by decide) (fun es' h => by
    rw [← List.mem_inits] at h
    revert es'
    decide) 4).2 (by decide)

example := c51_only none (Daemon.init (List.replicate 56 0)) (.input 4 (some "0102\n".toList) []) nofun

/-! ## C53 -/

/-- C53: no history makes the daemon write outside its packet or text buffers. -/
theorem c53_bounds (zx : Option Byte) {packet : List Byte} (hp : packet.length = 56)
    {es : List Daemon.Event} (he : PossibleAll zx (Daemon.init packet) es) :
    (Daemon.run zx (Daemon.init packet) es).overflow = false :=
  (holds_run zx (holds_init hp) he).safe

example : (Daemon.run (some 0) (Daemon.init (List.replicate 56 0)) [.accept 4, .input 4 (some (List.replicate 113 'x')) [],
    .input 4 (some (List.replicate 112 'f')) ['\n', '1'], .report (List.replicate 56 0xFF)]).overflow = false :=
  c53_bounds _ (by decide) (by decide)

example : (Daemon.step (some 0) (Daemon.init (List.replicate 56 0)) (.input 4 (some (List.replicate 114 'f')) [])).overflow =
    true := by decide

/-! ## C54 -/

theorem hexText_msgRepr (m : Msg) : HexText (msgRepr m) m := by
  induction m with
  | nil => trivial
  | cons b m ih =>
    have hb := b.isLt
    exact ⟨hexDigit_spec (by omega), hexDigit_spec (by omega), ih⟩

/-- C54, outwards: the line the client writes for a message makes the daemon write one report that starts with the encoded
message, if it has at most 56 octets. Missing from the full claim: longer messages (`c54_long_refuted`). -/
theorem c54_out_partial (zx : Option Byte) {packet : List Byte} (hp : packet.length = 56)
    {es : List Daemon.Event} (he : PossibleAll zx (Daemon.init packet) es) (fd : Nat) (st : List Char) (m : InMsg) (s : State) {f : Msg}
    (hf : (encodeMsg m s).1 = .ok f) (hlen : f.length ≤ 56) :
    ∃ line report, usbWriteLine m s = (.ok line, (encodeMsg m s).2) ∧
      (Daemon.run zx (Daemon.init packet) (es ++ [.input fd (some line) st])).device =
        (Daemon.run zx (Daemon.init packet) es).device ++ [report] ∧
      f <+: report ∧ report.length = 56 := by
  obtain ⟨report, h⟩ := c50_partial zx hp he fd st (hexText_msgRepr f) hlen (e := ['\n']) (by decide) (by simp)
  refine ⟨_, report, ?_, h⟩
  unfold usbWriteLine Py.bind
  generalize encodeMsg m s = x at hf
  rcases x with ⟨r, s'⟩
  simp only at hf
  subst hf
  rfl

/-- C54 is false of longer messages: the first part of the line that the daemon reads makes it repeat the packet it has. -/
theorem c54_long_refuted (zx : Option Byte) (d : Dmn) (fd : Nat) (st : List Char) {f : Msg} (hlen : 57 ≤ f.length) :
    (Daemon.step zx d (.input fd (some ((msgRepr f ++ ['\n']).take 113)) st)).device =
      d.device ++ [d.packet.take 56] := by
  have hl := hexText_length (hexText_msgRepr f)
  rw [List.take_append_of_le_length (by omega)]
  refine c50_long_refuted zx d fd st (fun c hc => hexText_digits (hexText_msgRepr f) c (List.mem_of_mem_take hc)) ?_
  rw [List.length_take, hl]
  omega

theorem hexText_octets {line : List Char} {data : Msg} : HexText line data → stringToOctets line = .ok data := by
  induction data generalizing line with
  | nil =>
    intro h
    rcases line with _ | ⟨c, _ | ⟨d, s⟩⟩
    · rfl
    · exact h.elim
    · exact h.elim
  | cons b m ih =>
    intro h
    rcases line with _ | ⟨c, _ | ⟨d, s⟩⟩
    · exact h.elim
    · exact h.elim
    · rw [stringToOctets_cons (.inl h.1) (.inl h.2.1), ih h.2.2]
      simp only
      congr 2
      apply BitVec.eq_of_toNat_eq
      rw [byte_toNat]
      have := b.isLt
      omega

theorem formatOut_ok (l : List OutMsg) : formatOut l = .ok () ↔ ∀ k a x d, OutMsg.group k a x d ∈ l → ∃ text, d.repr = .ok text := by
  induction l with
  | nil => simp [formatOut]
  | cons m l ih =>
    cases m with
    | group k a x d =>
      simp only [formatOut]
      rcases hr : d.repr with e | text
      · simp only [reduceCtorEq, false_iff]
        intro h
        obtain ⟨text, ht⟩ := h k a x d List.mem_cons_self
        rw [hr] at ht
        cases ht
      · simp only
        rw [ih]
        constructor
        · intro h k' a' x' d' hm
          rcases List.mem_cons.1 hm with hm | hm
          · cases hm
            exact ⟨text, hr⟩
          · exact h _ _ _ _ hm
        · exact fun h k' a' x' d' hm => h _ _ _ _ (List.mem_cons_of_mem _ hm)
    | _ => simpa [formatOut] using ih

/-- Reading a line that writes the octets of a report is decoding the report; the read fails though decoding succeeds just
if a datapoint cannot be displayed. -/
theorem usbReadLine_report {line : List Char} {data : Msg} (h : HexText line data) (s : State) :
    (usbReadLine (line ++ ['\n']) s).2 = (decodeMsg data s).2 ∧
    ∀ r, (usbReadLine (line ++ ['\n']) s).1 = .ok r ↔ (decodeMsg data s).1 = .ok r ∧
      ∀ k a x d, OutMsg.group k a x d ∈ messages r → ∃ text, d.repr = .ok text := by
  have ho := hexText_octets h
  unfold usbReadLine
  rw [List.dropLast_concat, ho]
  simp only [Py.bind, Py.lift]
  rcases decodeMsg data s with ⟨e | r, s'⟩
  · exact ⟨rfl, fun r => ⟨nofun, nofun⟩⟩
  · have key : ∀ l : List OutMsg, formatOut l = .ok () ∨ ∃ e, formatOut l = .error e := fun l => by
      rcases formatOut l with e | ⟨⟩
      · exact .inr ⟨e, rfl⟩
      · exact .inl rfl
    cases r with
    | none =>
      simp only [Py.pure]
      refine ⟨trivial, fun r => ⟨fun h => ?_, fun h => h.1⟩⟩
      cases h
      exact ⟨rfl, fun _ _ _ _ hm => absurd hm (by simp [messages])⟩
    | list l =>
      simp only [Py.bind, Py.lift]
      rcases key l with hl | ⟨e, hl⟩
      · rw [hl]
        refine ⟨rfl, fun r => ⟨fun h => ?_, fun h => h.1⟩⟩
        cases h
        exact ⟨rfl, (formatOut_ok l).1 hl⟩
      · rw [hl]
        refine ⟨rfl, fun r => ⟨nofun, fun h => ?_⟩⟩
        cases h.1
        rw [(formatOut_ok l).2 h.2] at hl
        cases hl
    | tuple l =>
      simp only [Py.bind, Py.lift]
      rcases key l with hl | ⟨e, hl⟩
      · rw [hl]
        refine ⟨rfl, fun r => ⟨fun h => ?_, fun h => h.1⟩⟩
        cases h
        exact ⟨rfl, (formatOut_ok l).1 hl⟩
      · rw [hl]
        refine ⟨rfl, fun r => ⟨nofun, fun h => ?_⟩⟩
        cases h.1
        rw [(formatOut_ok l).2 h.2] at hl
        cases hl

/-- C54, inwards: what the client does with a line the daemon sends for a report is decoding the octets of the report. The
read fails though decoding succeeds just if a datapoint cannot be displayed. -/
theorem c54_in (zx : Option Byte) {packet : List Byte} (hp : packet.length = 56)
    {es : List Daemon.Event} (he : PossibleAll zx (Daemon.init packet) es) (data : List Byte) :
    ∃ new, (Daemon.run zx (Daemon.init packet) (es ++ [.report data])).sent =
        (Daemon.run zx (Daemon.init packet) es).sent ++ new ∧
      ∀ p ∈ new, ∀ s : State, (usbReadLine p.2 s).2 = (decodeMsg data s).2 ∧
        ∀ r, (usbReadLine p.2 s).1 = .ok r ↔ (decodeMsg data s).1 = .ok r ∧
          ∀ k a x d, OutMsg.group k a x d ∈ messages r → ∃ text, d.repr = .ok text := by
  obtain ⟨line, h1, -, h3⟩ := c51_broadcast zx hp he data
  refine ⟨_, h3, ?_⟩
  simp only [List.mem_map]
  rintro p ⟨fd, -, rfl⟩ s
  exact usbReadLine_report h1 s

example : ∃ line report, usbWriteLine (.groupWriteReq ⟨7, none⟩ ⟨.float16, 0x0C3D⟩) (exState .usbHid) =
      (.ok line, (encodeMsg (.groupWriteReq ⟨7, none⟩ ⟨.float16, 0x0C3D⟩) (exState .usbHid)).2) ∧
    (Daemon.run none (Daemon.init (List.replicate 56 0)) ([.accept 4] ++ [.input 4 (some line) []])).device =
      [] ++ [report] ∧
    [0x01, 0x13, 0x15, 0, 8, 0, 0x0D, 1, 3, 0, 0, 0x11, 0, 0x96, 0xE0, 0, 0, 0x0E, 0x89, 3, 0, 0x80, 0x0C, 0x3D] <+: report ∧
    report.length = 56 :=
  c54_out_partial none (by decide) (es := [.accept 4]) (by decide) 4 [] _ _ (by decide +kernel) (by decide)

example : (Daemon.step none (Daemon.init (List.replicate 56 7)) (.input 4 (some ((msgRepr (List.replicate 60 0xFF) ++ ['\n']).take 113)) [])).device =
    [] ++ [(List.replicate 56 7).take 56] := c54_long_refuted _ _ 4 [] (by decide)

example : ∃ new, (Daemon.run none (Daemon.init (List.replicate 56 0)) ([.accept 4, .accept 5] ++
      [.report (usbReport (cemi 0x29 [] exTelegram))])).sent = [] ++ new ∧
    ∀ p ∈ new, ∀ s : State, (usbReadLine p.2 s).2 = (decodeMsg (usbReport (cemi 0x29 [] exTelegram)) s).2 := by
  obtain ⟨new, h1, h2⟩ := c54_in none (packet := List.replicate 56 0) (by decide) (es := [.accept 4, .accept 5])
    (by decide) (usbReport (cemi 0x29 [] exTelegram))
  exact ⟨new, h1, fun p hp s => (h2 p hp s).1⟩

end Knx
