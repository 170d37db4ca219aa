import Verif.Props.Daemon

/-! # What the USB daemon looks at: C69 -/

namespace Knx
open Spec Daemon

theorem scanReads_hex {c : Char} (h : IsHex c) (s : List Char) : scanReads (c :: s) = 2 := by
  have hs := (hex_graphic h).1
  obtain ⟨v, hv⟩ := h
  have hc : hexVal c ≠ none := by rw [(hexVal_some_iff _ _).2 hv]; simp
  unfold scanReads
  rw [cString_cons ⟨v, hv⟩, List.dropWhile_cons_of_neg (by simp [hs]), List.takeWhile_cons_of_neg (by simp [hs])]
  simp [hc]

theorem convertReads_hex (zx : Option Byte) {line : List Char} {m : Msg} (h : HexText line m) (rest : List Char) (i : Nat) :
    (convertReads zx m.length i (line ++ rest)).2 = true ∧
    ∀ p ∈ (convertReads zx m.length i (line ++ rest)).1, 2 * (i : Int) ≤ p ∧ p < 2 * (i + m.length) := by
  induction m generalizing line i with
  | nil => exact ⟨rfl, by simp [convertReads]⟩
  | cons b m ih =>
    match line, h with
    | c :: d :: line, h =>
      have hc := (hexVal_some_iff _ _).2 h.1
      have hd := (hexVal_some_iff _ _).2 h.2.1
      obtain ⟨h1, h2⟩ := ih h.2.2 (i + 1)
      simp only [List.length_cons, List.cons_append]
      unfold convertReads
      rw [scan_hex zx hc hd, scanReads_hex ⟨_, h.1⟩]
      simp only [List.drop_succ_cons, List.drop_zero]
      refine ⟨h1, fun p hp => ?_⟩
      rcases List.mem_append.1 hp with hp | hp
      · simp only [List.mem_map, List.mem_range] at hp
        obtain ⟨k, hk, rfl⟩ := hp
        push_cast
        omega
      · have := h2 p hp
        push_cast at this ⊢
        omega

theorem line_length {line e : List Char} (h : ∀ c ∈ line, IsHex c) (he : LineEnd e) :
    (chomp (line ++ e)).length ≤ (line ++ e).length ∧ line.length ≤ (chomp (line ++ e)).length := by
  refine ⟨chomp_le _, ?_⟩
  have := chomp_le (chomp (line ++ e))
  rw [chomp_line h he] at this
  exact this

/-- C69, as far as it holds: while it handles a line of hexadecimal text, not empty, behind which the memory happens to
hold a NUL, the daemon reads nothing but the line and this NUL. Missing from the full claim: an empty line
(`c69_empty_refuted`), a line behind which there is no NUL (`c69_print_refuted`, `c69_full_refuted`), white space
(`c69_leak_refuted`). -/
theorem c69_partial (zx : Option Byte) {line e : List Char} {m : Msg} (hl : HexText line m) (hm : m ≠ [])
    (he : LineEnd e) (stale : List Char) :
    ∀ p ∈ readPositions zx (line ++ e) ('\x00' :: stale), 0 ≤ p ∧ p ≤ (line ++ e).length := by
  have hd := hexText_digits hl
  have hlen := hexText_length hl
  have hpos : 0 < m.length := List.length_pos_iff.2 hm
  obtain ⟨l1, l2⟩ := line_length hd he
  have lt : (line ++ e).length = line.length + e.length := List.length_append
  unfold readPositions
  rw [chomp_line hd he, hlen]
  simp only
  rw [if_neg (by omega), show 2 * m.length / 2 = m.length by omega, List.append_assoc]
  obtain ⟨h1, h2⟩ := convertReads_hex zx hl (e ++ '\x00' :: stale) 0
  generalize convertReads zx m.length 0 (line ++ (e ++ '\x00' :: stale)) = x at h1 h2
  obtain ⟨r, ok⟩ := x
  simp only at h1 h2
  subst h1
  have hc : (cString (line ++ (e ++ '\x00' :: stale))).length ≤ line.length + e.length := by
    have key : ∀ (a b : List Char), (cString (a ++ '\x00' :: b)).length ≤ a.length := by
      intro a b
      induction a with
      | nil => simp [cString]
      | cons c a ih =>
        by_cases hc : c = '\x00'
        · simp [cString, hc]
        · simp only [cString, List.cons_append] at ih ⊢
          rw [List.takeWhile_cons_of_pos (by simpa using hc)]
          simp only [List.length_cons]
          omega
    have := key (line ++ e) stale
    rw [List.append_assoc] at this
    omega
  intro p hp
  simp only [List.mem_append, List.mem_cons, List.not_mem_nil, or_false, List.mem_map, List.mem_range] at hp
  rcases hp with ((rfl | rfl) | hp) | ⟨k, hk, rfl⟩
  · omega
  · omega
  · have := h2 p hp
    push_cast at this
    omega
  · simp only [Int.ofNat_eq_natCast]
    omega

/-- C69 is false: on an empty line the daemon reads the character before its buffer. -/
theorem c69_empty_refuted (zx : Option Byte) {c : Char} (hc : c = '\n' ∨ c = '\r') (stale : List Char) :
    -1 ∈ readPositions zx [c] stale := by
  have h : chomp [c] = [] := chomp_end (s := []) hc
  have h' : chomp [] = [] := rfl
  unfold readPositions
  rw [h, h']
  simp [convertReads]

theorem cString_append {a : List Char} (h : '\x00' ∉ a) (b : List Char) : cString (a ++ b) = a ++ cString b := by
  induction a with
  | nil => rfl
  | cons c a ih =>
    simp only [List.mem_cons, not_or] at h
    have hc : c ≠ '\x00' := fun e => h.1 e.symm
    have := ih h.2
    unfold cString at this ⊢
    rw [List.cons_append, List.takeWhile_cons_of_pos (by simpa using hc), this, List.cons_append]

theorem lineEnd_nul {line e : List Char} (h : ∀ c ∈ line, IsHex c) (he : LineEnd e) : '\x00' ∉ line ++ e := by
  intro hm
  rcases List.mem_append.1 hm with hm | hm
  · exact absurd (h _ hm) (by decide)
  · simp only [LineEnd, List.mem_cons, List.not_mem_nil, or_false] at he
    rcases he with rfl | rfl | rfl | rfl <;> simp at hm

/-- C69 is false: every line of hexadecimal text makes the daemon read everything behind it up to the next NUL. -/
theorem c69_print_refuted (zx : Option Byte) {line e : List Char} {m : Msg} (hl : HexText line m) (he : LineEnd e)
    {stale : List Char} (hs : '\x00' ∉ stale) (more : List Char) :
    ∀ k ≤ stale.length, (((line ++ e).length + k : Nat) : Int) ∈ readPositions zx (line ++ e) (stale ++ '\x00' :: more) := by
  intro k hk
  have hd := hexText_digits hl
  have hlen := hexText_length hl
  unfold readPositions
  rw [chomp_line hd he, hlen]
  simp only
  rw [if_neg (by omega), show 2 * m.length / 2 = m.length by omega,
    cString_append (lineEnd_nul hd he), cString_append hs, List.append_assoc line e]
  obtain ⟨h1, -⟩ := convertReads_hex zx hl (e ++ (stale ++ '\x00' :: more)) 0
  generalize convertReads zx m.length 0 (line ++ (e ++ (stale ++ '\x00' :: more))) = x at h1
  obtain ⟨r, ok⟩ := x
  simp only at h1
  subst h1
  simp only [List.mem_append, List.mem_map, List.mem_range]
  right
  refine ⟨(line ++ e).length + k, ?_, rfl⟩
  simp only [List.length_append]
  omega

/-- In particular the longest report, of 56 octets, makes the daemon read the character after its buffer of 113. -/
theorem c69_full_refuted (zx : Option Byte) {line : List Char} {m : Msg} (hl : HexText line m) (hm : m.length = 56)
    (stale : List Char) : 113 ∈ readPositions zx (line ++ ['\n']) stale := by
  have hd := hexText_digits hl
  have hlen := hexText_length hl
  have he : LineEnd ['\n'] := by decide
  unfold readPositions
  rw [chomp_line hd he, hlen]
  simp only
  rw [if_neg (by omega), show 2 * m.length / 2 = m.length by omega,
    cString_append (lineEnd_nul hd he), List.append_assoc line]
  obtain ⟨h1, -⟩ := convertReads_hex zx hl (['\n'] ++ stale) 0
  generalize convertReads zx m.length 0 (line ++ (['\n'] ++ stale)) = x at h1
  obtain ⟨r, ok⟩ := x
  simp only at h1
  subst h1
  simp only [List.mem_append, List.mem_map, List.mem_range]
  right
  refine ⟨113, ?_, rfl⟩
  simp only [List.length_append, List.length_singleton]
  omega

/-! ## What the packet depends on -/

theorem scan_two (zx : Option Byte) {c : Char} (hc : isSpace c = false) (d : Char) (x y : List Char) :
    scan zx (c :: d :: x) = scan zx (c :: d :: y) := by
  unfold scan
  by_cases h0 : c = '\x00'
  · simp [cString, h0]
  · have e1 : ∀ z, cString (c :: z) = c :: cString z := fun z => by simp [cString, h0]
    rw [e1, e1, List.dropWhile_cons_of_neg (by simp [hc]), List.dropWhile_cons_of_neg (by simp [hc])]
    by_cases h1 : d = '\x00'
    · simp [cString, h1]
    · have e2 : ∀ z, cString (d :: z) = d :: cString z := fun z => by simp [cString, h1]
      rw [e2, e2]
      simp only
      rcases hexVal c with _ | h <;> rfl

theorem convert_text (zx : Option Byte) {n : Nat} {s : List Char} (hn : s.length = 2 * n) (hs : ∀ c ∈ s, isSpace c = false)
    (i : Nat) (x y : List Char) (p : List Byte) : convert zx n i (s ++ x) p = convert zx n i (s ++ y) p := by
  induction n generalizing s i p with
  | zero => rfl
  | succ n ih =>
    match s, hn with
    | c :: d :: s, hn =>
      simp only [List.cons_append]
      unfold convert
      rw [scan_two zx (hs c List.mem_cons_self) d (s ++ x) (s ++ y)]
      rcases scan zx (c :: d :: (s ++ y)) with _ | b
      · rfl
      · simp only [List.drop_succ_cons, List.drop_zero]
        rw [ih (by simp only [List.length_cons] at hn; omega)
          (fun c hc => hs c (List.mem_cons_of_mem _ (List.mem_cons_of_mem _ hc)))]

theorem chomp_prefix (s : List Char) : chomp s <+: s := by
  unfold chomp
  split
  · exact List.prefix_refl _
  · split_ifs
    · exact List.dropLast_prefix s
    · exact List.prefix_refl _

theorem chomp_plain {text : List Char} (h : ∀ c ∈ text, c ∉ space) : chomp text = text := by
  unfold chomp
  rcases hl : text.getLast? with _ | c
  · rfl
  · have h1 := h c (List.mem_of_getLast? hl)
    simp only
    rw [if_neg]
    rintro (rfl | rfl) <;> exact h1 (by decide)

theorem chomp_one {text : List Char} {c : Char} (h : c = '\n' ∨ c = '\r') : chomp (text ++ [c]) = text := by
  unfold chomp
  simp [h]

theorem chomp_text {text ending : List Char} (ht : ∀ c ∈ text, c ∉ space) (he : LineEnd ending) :
    chomp (chomp (text ++ ending)) = text := by
  unfold LineEnd at he
  simp only [List.mem_cons, List.not_mem_nil, or_false] at he
  rcases he with rfl | rfl | rfl | rfl
  · rw [List.append_nil, chomp_plain ht, chomp_plain ht]
  · rw [chomp_one (.inl rfl), chomp_plain ht]
  · rw [chomp_one (.inr rfl), chomp_plain ht]
  · rw [show text ++ ['\r', '\n'] = (text ++ ['\r']) ++ ['\n'] by simp, chomp_one (.inl rfl), chomp_one (.inr rfl)]

/-- What the daemon does with a text without white space, apart from its line end, depends on nothing but the text and
the packet, whatever else is in the memory. -/
theorem c69_content_partial (zx : Option Byte) {text ending : List Char} (ht : ∀ c ∈ text, c ∉ space) (he : LineEnd ending)
    (d : Dmn) (fd : Nat) (stale stale' : List Char) :
    Daemon.step zx d (.input fd (some (text ++ ending)) stale) = Daemon.step zx d (.input fd (some (text ++ ending)) stale') := by
  have hs : ∀ c ∈ chomp (chomp (text ++ ending)), isSpace c = false := by
    rw [chomp_text ht he]
    intro c hc
    have := ht c hc
    unfold space at this
    unfold isSpace
    simpa using this
  generalize text ++ ending = s at hs ⊢
  have hr : readFromClient zx (some s) stale d.packet = readFromClient zx (some s) stale' d.packet := by
    unfold readFromClient
    rcases s with _ | ⟨c, s⟩
    · rfl
    · simp only
      split_ifs with h
      · rfl
      · obtain ⟨r, hp⟩ := (chomp_prefix (chomp (c :: s))).trans (chomp_prefix (c :: s))
        have key : ∀ st, c :: s ++ st = chomp (chomp (c :: s)) ++ (r ++ st) := fun st => by
          rw [← List.append_assoc, hp]
        rw [key, key, convert_text zx (by omega) hs 0 (r ++ stale) (r ++ stale')]
  simp only [Daemon.step, hr]

/-- C69 is false: two spaces make the daemon write any octet to the device that happens to stand behind them in its
memory as text. -/
theorem c69_leak_refuted (zx : Option Byte) (d : Dmn) (hp : d.packet.length = packetLen) (fd : Nat) (b : Byte) {x y : Char}
    (hx : HexDigit x (b.toNat / 16)) (hy : HexDigit y (b.toNat % 16)) (more : List Char) :
    (Daemon.step zx d (.input fd (some [' ', ' ']) (x :: y :: more))).device = d.device ++ [b :: d.packet.drop 1] := by
  rw [step_input, if_pos ⟨nofun, nofun⟩]
  have hs : scan zx (' ' :: ' ' :: x :: y :: more) = some b := by
    have h := scan_hex zx ((hexVal_some_iff _ _).2 hx) ((hexVal_some_iff _ _).2 hy) more
    have h1 : scan zx (' ' :: ' ' :: x :: y :: more) = scan zx (x :: y :: more) := by
      have e : ∀ z, (cString (' ' :: z)).dropWhile isSpace = (cString z).dropWhile isSpace := by
        intro z
        have : cString (' ' :: z) = ' ' :: cString z := by simp [cString]
        rw [this, List.dropWhile_cons_of_pos (by decide)]
      unfold scan
      rw [e, e]
    rw [h1, h, Option.some.injEq]
    apply BitVec.eq_of_toNat_eq
    rw [byte_toNat]
    have := b.isLt
    omega
  have hc : chomp [' ', ' '] = [' ', ' '] := by decide
  have hr : (readFromClient zx (some [' ', ' ']) (x :: y :: more) d.packet).2.2 = d.packet.set 0 b := by
    unfold readFromClient
    simp only [hc]
    rw [if_neg (by decide)]
    simp only [List.length_cons, List.length_nil, List.cons_append, List.nil_append]
    norm_num
    unfold convert
    rw [hs]
    rfl
  simp only [hr]
  match hd : d.packet, hp with
  | q :: ps, hp =>
    simp only [List.set_cons_zero, List.drop_succ_cons, List.drop_zero]
    rw [List.take_of_length_le (by simpa using hp.le)]

/-- C69 is false: a digit followed by something else than a digit changes the packet, and the change is written to the
device. -/
theorem c69_digit_refuted (zx : Option Byte) (d : Dmn) (hp : d.packet.length = packetLen) (fd : Nat) {c g : Char} {v : Nat}
    (hc : HexDigit c v) (hg : ¬ IsHex g) (hx : g ≠ 'x' ∧ g ≠ 'X') (hn : g ≠ '\n' ∧ g ≠ '\r') (stale : List Char) :
    (Daemon.step zx d (.input fd (some [c, g]) stale)).device = d.device ++ [BitVec.ofNat 8 v :: d.packet.drop 1] ∧
    ∀ m, ¬ HexText [c, g] m := by
  have hv := (hexVal_some_iff _ _).2 hc
  have hgv : hexVal g = none := by
    cases h : hexVal g with
    | none => rfl
    | some w => exact absurd ⟨w, (hexVal_some_iff _ _).1 h⟩ hg
  refine ⟨?_, ?_⟩
  · rw [step_input, if_pos ⟨nofun, nofun⟩]
    have hs : scan zx (c :: g :: stale) = some (byte v) := by
      have ic : IsHex c := ⟨v, hc⟩
      unfold scan
      rw [cString_cons ic, List.dropWhile_cons_of_neg (by simp [(hex_graphic ic).1])]
      by_cases h0 : g = '\x00'
      · have : cString (g :: stale) = [] := by simp [cString, h0]
        simp only [this, hv]
        rw [if_neg (hex_graphic ic).2.1]
      · have : cString (g :: stale) = g :: cString stale := by simp [cString, h0]
        simp only [this, hv, hgv]
        rw [if_neg (hex_graphic ic).2.1, if_neg (by rintro ⟨-, h | h⟩; exacts [hx.1 h, hx.2 h])]
    have hch : chomp [c, g] = [c, g] := by
      unfold chomp
      simp [hn.1, hn.2]
    have hr : (readFromClient zx (some [c, g]) stale d.packet).2.2 = d.packet.set 0 (byte v) := by
      unfold readFromClient
      simp only [hch]
      rw [if_neg (by simp)]
      simp only [List.length_cons, List.length_nil, List.cons_append, List.nil_append]
      norm_num
      unfold convert
      rw [hs]
      rfl
    simp only [hr]
    match hd : d.packet, hp with
    | q :: ps, hp =>
      simp only [List.set_cons_zero, List.drop_succ_cons, List.drop_zero]
      rw [List.take_of_length_le (by simpa using hp.le)]
      rfl
  · intro m h
    match m, h with
    | [b], h => exact hg ⟨_, h.2.1⟩

/-- C69 is false: a sign and a digit change the packet, a minus sign to the two's complement, and the change is written to
the device. -/
theorem c69_sign_refuted (zx : Option Byte) (d : Dmn) (hp : d.packet.length = packetLen) (fd : Nat) {c g : Char} {v : Nat}
    (hc : c = '+' ∨ c = '-') (hg : HexDigit g v) (stale : List Char) :
    (Daemon.step zx d (.input fd (some [c, g]) stale)).device =
      d.device ++ [BitVec.ofInt 8 (if c = '-' then -(v : Int) else v) :: d.packet.drop 1] ∧ ∀ m, ¬ HexText [c, g] m := by
  have hv := (hexVal_some_iff _ _).2 hg
  have ig : IsHex g := ⟨v, hg⟩
  have hcs : isSpace c = false ∧ c ≠ '\x00' ∧ hexVal c = none := by rcases hc with rfl | rfl <;> decide
  have hb : (if c = '-' then byte (256 - v) else byte v) = BitVec.ofInt 8 (if c = '-' then -(v : Int) else v) := by
    have hlt : v < 16 := by
      exact (show ∀ p ∈ hexTable, p.2 < 16 by decide) (g, v) hg
    clear hv hg
    split_ifs <;> (revert v; decide +revert)
  refine ⟨?_, ?_⟩
  · rw [step_input, if_pos ⟨nofun, nofun⟩]
    have hs : scan zx (c :: g :: stale) = some (BitVec.ofInt 8 (if c = '-' then -(v : Int) else v)) := by
      unfold scan
      have e : cString (c :: g :: stale) = c :: cString (g :: stale) := by simp [cString, hcs.2.1]
      rw [e, cString_cons ig, List.dropWhile_cons_of_neg (by simp [hcs.1])]
      simp only [hv, Option.map_some, if_pos hc, hb]
    have hch : chomp [c, g] = [c, g] := by
      unfold chomp
      have : g ≠ '\n' ∧ g ≠ '\r' := by
        constructor <;> rintro rfl <;> cases hv
      simp [this.1, this.2]
    have hr : (readFromClient zx (some [c, g]) stale d.packet).2.2 =
        d.packet.set 0 (BitVec.ofInt 8 (if c = '-' then -(v : Int) else v)) := by
      unfold readFromClient
      simp only [hch]
      rw [if_neg (by simp)]
      simp only [List.length_cons, List.length_nil, List.cons_append, List.nil_append]
      norm_num
      unfold convert
      rw [hs]
      rfl
    simp only [hr]
    match hd : d.packet, hp with
    | q :: ps, hp =>
      simp only [List.set_cons_zero, List.drop_succ_cons, List.drop_zero]
      rw [List.take_of_length_le (by simpa using hp.le)]
  · intro m h
    match m, h with
    | [b], h =>
      have := (hexVal_some_iff _ _).2 h.1
      rw [hcs.2.2] at this
      cases this

theorem scan_garbled (zx : Option Byte) {c : Char} (hc : ¬ IsHex c) (hs : c ∉ space) (hg : c ≠ '+' ∧ c ≠ '-') (s : List Char) :
    scan zx (c :: s) = none := by
  have hv : hexVal c = none := by
    cases h : hexVal c with
    | none => rfl
    | some w => exact absurd ⟨w, (hexVal_some_iff _ _).1 h⟩ hc
  unfold scan
  by_cases h0 : c = '\x00'
  · simp [cString, h0]
  · have e : cString (c :: s) = c :: cString s := by simp [cString, h0]
    have hi : isSpace c = false := by
      unfold space at hs
      unfold isSpace
      simpa using hs
    rw [e, List.dropWhile_cons_of_neg (by simp [hi])]
    simp only [hv]
    rw [if_neg (by rintro (h | h); exacts [hg.1 h, hg.2 h])]

theorem convert_garbled (zx : Option Byte) {s : List Char} {m : Msg} (h : HexText s m) {c : Char} (hc : ¬ IsHex c) (hs : c ∉ space)
    (hg : c ≠ '+' ∧ c ≠ '-') (rest : List Char) (k : Nat) (done tail : List Byte) (ht : m.length ≤ tail.length) :
    (convert zx (m.length + (k + 1)) done.length (s ++ c :: rest) (done ++ tail)).2.2 = done ++ m ++ tail.drop m.length := by
  induction m generalizing s done tail with
  | nil =>
    rcases s with _ | ⟨x, _ | ⟨y, s⟩⟩
    · rw [List.nil_append, List.length_nil, Nat.zero_add]
      unfold convert
      rw [scan_garbled zx hc hs hg]
      simp
    · exact h.elim
    · exact h.elim
  | cons b m ih =>
    match s, h with
    | x :: y :: s, h =>
      rcases tail with _ | ⟨t, tail⟩
      · simp at ht
      have hsc : scan zx (x :: y :: (s ++ c :: rest)) = some b := by
        rw [scan_hex zx ((hexVal_some_iff _ _).2 h.1) ((hexVal_some_iff _ _).2 h.2.1), Option.some.injEq]
        apply BitVec.eq_of_toNat_eq
        rw [byte_toNat]
        have := b.isLt
        omega
      have := ih h.2.2 (done ++ [b]) tail (by simpa using ht)
      rw [List.length_cons, show m.length + 1 + (k + 1) = (m.length + (k + 1)) + 1 by omega]
      simp only [List.cons_append]
      unfold convert
      rw [hsc]
      simp only [List.drop_succ_cons, List.drop_zero]
      rw [show (done ++ t :: tail).set done.length b = done ++ [b] ++ tail by simp]
      rw [List.length_append, List.length_singleton] at this
      rw [this]
      simp

/-- C69, as far as it holds: of a text without white space that goes wrong at some character, other than a sign, which stands
where an octet should begin, the octets before this character reach the packet if the number of characters is even, and nothing
else changes it; the packet is written to the device in any case. Missing from the full claim: a character that goes wrong in
the middle of an octet (`c69_digit_refuted`) and signs (`c69_sign_refuted`). -/
theorem c69_garbled_partial (zx : Option Byte) (d : Dmn) (hp : d.packet.length = packetLen) (fd : Nat) {line rest ending : List Char}
    {m : Msg} (hl : HexText line m) (hm : m.length ≤ packetLen) {c : Char} (hc : ¬ IsHex c) (hg : c ≠ '+' ∧ c ≠ '-')
    (hs : ∀ x ∈ c :: rest, x ∉ space) (he : LineEnd ending) (stale : List Char) :
    let after := if (c :: rest).length % 2 = 0 then m ++ d.packet.drop m.length else d.packet
    let next := Daemon.step zx d (.input fd (some (line ++ c :: rest ++ ending)) stale)
    next.packet = after ∧ next.device = d.device ++ [after] := by
  intro after next
  have hsp : ∀ x ∈ line ++ c :: rest, x ∉ space := by
    intro x hx
    rcases List.mem_append.1 hx with hx | hx
    · intro hm
      have := (hex_graphic (hexText_digits hl x hx)).1
      unfold space at hm
      unfold isSpace at this
      simp only [decide_eq_false_iff_not] at this
      exact this (by simpa using hm)
    · exact hs x hx
  have hlen := hexText_length hl
  have hr : (readFromClient zx (some (line ++ c :: rest ++ ending)) stale d.packet).2.2 = after := by
    have hne : line ++ c :: rest ++ ending ≠ [] := by simp
    have hch := chomp_text hsp he
    generalize htext : line ++ c :: rest ++ ending = text at hne hch
    rcases text with _ | ⟨x, xs⟩
    · exact absurd rfl hne
    unfold readFromClient
    simp only [hch, List.length_append, hlen]
    by_cases hodd : (c :: rest).length % 2 = 0
    · rw [if_neg (by omega)]
      obtain ⟨k, hk⟩ : ∃ k, (c :: rest).length = 2 * (k + 1) :=
        ⟨(c :: rest).length / 2 - 1, by have : 0 < (c :: rest).length := by simp
                                        omega⟩
      have key := convert_garbled zx hl hc (hs c List.mem_cons_self) hg (rest ++ ending ++ stale) k [] d.packet (by omega)
      rw [hk, show (2 * m.length + 2 * (k + 1)) / 2 = m.length + (k + 1) by omega, ← htext]
      rw [show line ++ c :: rest ++ ending ++ stale = line ++ c :: (rest ++ ending ++ stale) by simp]
      simp only [List.length_nil, List.nil_append] at key
      show _ = if _ then _ else _
      rw [if_pos hodd]
      split <;> (rename_i e; rw [e] at key; exact key)
    · rw [if_pos (by omega)]
      show _ = if _ then _ else _
      rw [if_neg hodd]
  have hal : after.length = packetLen := by
    show (if _ then _ else _ : List Byte).length = _
    split_ifs
    · rw [List.length_append, List.length_drop]
      omega
    · exact hp
  show (Daemon.step zx d _).packet = _ ∧ (Daemon.step zx d _).device = _
  rw [step_input, if_pos ⟨nofun, by simp⟩]
  simp only [hr]
  exact ⟨trivial, by rw [List.take_of_length_le hal.le]⟩

example : ∀ p ∈ readPositions none ("0113fA".toList ++ ['\r', '\n']) ('\x00' :: "12".toList), 0 ≤ p ∧ p ≤ 8 :=
  c69_partial none (m := [0x01, 0x13, 0xFA]) (by decide) (by decide) (by decide) _

example : -1 ∈ readPositions none ['\n'] "12".toList := c69_empty_refuted none (.inl rfl) _

example := c69_print_refuted none (line := "0113fA".toList) (e := ['\n']) (m := [0x01, 0x13, 0xFA]) (by decide) (by decide)
  (stale := "secret".toList) (by decide) [] 6 (by decide)

example := c69_full_refuted none (line := List.replicate 112 'f') (m := List.replicate 56 0xFF) (by decide) (by decide) []

example := c69_content_partial none (text := "01-f3x".toList) (ending := "\r\n".toList) (by decide)
  (by decide) (Daemon.init (List.replicate 56 0)) 4 "12".toList []

example : (Daemon.step none (Daemon.init (List.replicate 56 0)) (.input 4 (some [' ', ' ']) "7Fx".toList)).device =
    [] ++ [0x7F :: List.replicate 55 0] :=
  c69_leak_refuted none _ (by decide) 4 0x7F (by decide) (by decide) ['x']

example : (Daemon.step none (Daemon.init (List.replicate 56 0)) (.input 4 (some ['9', 'g']) [])).device =
    [] ++ [9 :: List.replicate 55 0] :=
  (c69_digit_refuted none _ (by decide) 4 (v := 9) (by decide) (by decide) (by decide) (by decide) []).1

/-- `-1` writes 0xFF. -/
example : (Daemon.step none (Daemon.init (List.replicate 56 0)) (.input 4 (some ['-', '1']) [])).device =
    [] ++ [0xFF :: List.replicate 55 0] :=
  (c69_sign_refuted none _ (by decide) 4 (c := '-') (g := '1') (v := 1) (.inr rfl) (by decide) []).1

/-- `0113zz` and a line end: two octets are taken over and written, although the line as a whole is refused. -/
example : (Daemon.step none (Daemon.init (List.replicate 56 7)) (.input 4 (some ("0113".toList ++ 'z' :: ['z'] ++ ['\n'])) [])).packet =
    1 :: 0x13 :: List.replicate 54 7 :=
  (c69_garbled_partial none (Daemon.init (List.replicate 56 7)) (by decide) 4 (line := "0113".toList) (rest := ['z']) (ending := ['\n'])
    (m := [1, 0x13]) (by decide) (by decide) (c := 'z') (by decide) (by decide) (by decide) (by decide) []).1

theorem isSpace_iff (c : Char) : isSpace c = true ↔ c ∈ space := by simp [isSpace, space]

theorem looksAt_zero (mem : List Char) : LooksAt mem 0 := .inl fun _ h => absurd h (Nat.not_lt_zero _)

theorem looksAt_space {c : Char} (hc : c ∈ space) (mem : List Char) (k : Nat) : LooksAt (c :: mem) (k + 1) ↔ LooksAt mem k := by
  have hq : ∀ n, (∀ q < n + 1, ∃ b, (c :: mem)[q]? = some b ∧ b ∈ space) ↔ ∀ q < n, ∃ b, mem[q]? = some b ∧ b ∈ space := by
    intro n
    constructor
    · intro h q hq
      have := h (q + 1) (by omega)
      rwa [List.getElem?_cons_succ] at this
    · intro h q hq
      cases q with
      | zero => exact ⟨c, rfl, hc⟩
      | succ q =>
        rw [List.getElem?_cons_succ]
        exact h q (by omega)
  unfold LooksAt
  rw [hq]
  refine or_congr_right ⟨?_, ?_⟩
  · rintro ⟨j, d, hj, hd, hx, ha⟩
    cases j with
    | zero =>
      cases hd
      exfalso
      rcases hx with rfl | rfl | hx
      · exact absurd hc (by decide)
      · exact absurd hc (by decide)
      · have := (hex_graphic hx).1
        rw [(isSpace_iff _).2 hc] at this
        cases this
    | succ j => exact ⟨j, d, by omega, by rwa [List.getElem?_cons_succ] at hd, hx, (hq j).1 ha⟩
  · rintro ⟨j, d, hj, hd, hx, ha⟩
    exact ⟨j + 1, d, by omega, by rwa [List.getElem?_cons_succ], hx, (hq j).2 ha⟩

theorem looksAt_other {c : Char} (hc : c ∉ space) (mem : List Char) (k : Nat) :
    LooksAt (c :: mem) (k + 1) ↔ k = 0 ∧ (c = '+' ∨ c = '-' ∨ IsHex c) := by
  constructor
  · rintro (h | ⟨j, d, hj, hd, hx, ha⟩)
    · obtain ⟨b, hb, hs⟩ := h 0 (by omega)
      cases hb
      exact absurd hs hc
    · cases j with
      | zero =>
        cases hd
        exact ⟨by omega, hx⟩
      | succ j =>
        obtain ⟨b, hb, hs⟩ := ha 0 (by omega)
        cases hb
        exact absurd hs hc
  · rintro ⟨rfl, hx⟩
    exact .inr ⟨0, c, rfl, rfl, hx, fun _ h => absurd h (Nat.not_lt_zero _)⟩

theorem scanReads_looks (mem : List Char) (k : Nat) : k < scanReads mem ↔ LooksAt mem k := by
  induction mem generalizing k with
  | nil =>
    cases k with
    | zero => exact iff_of_true (by decide) (looksAt_zero _)
    | succ k =>
      refine iff_of_false (by simp [scanReads, cString]) ?_
      rintro (h | ⟨j, d, -, hd, -⟩)
      · obtain ⟨b, hb, -⟩ := h 0 (by omega)
        cases hb
      · cases hd
  | cons c mem ih =>
    by_cases h0 : c = '\x00'
    · subst h0
      have hr : scanReads ('\x00' :: mem) = 1 := by simp [scanReads, cString]
      rw [hr]
      cases k with
      | zero => exact iff_of_true (by omega) (looksAt_zero _)
      | succ k =>
        rw [looksAt_other (by decide)]
        exact iff_of_false (by omega) fun h => absurd h.2 (by decide)
    · have hcs : cString (c :: mem) = c :: cString mem := by simp [cString, h0]
      by_cases hs : c ∈ space
      · have hi := (isSpace_iff c).2 hs
        have hr : scanReads (c :: mem) = scanReads mem + 1 := by
          unfold scanReads
          rw [hcs, List.takeWhile_cons_of_pos hi, List.dropWhile_cons_of_pos hi]
          simp only [List.length_cons]
          split
          · omega
          · split_ifs <;> omega
        rw [hr]
        cases k with
        | zero => exact iff_of_true (by omega) (looksAt_zero _)
        | succ k =>
          rw [looksAt_space hs, ← ih k]
          omega
      · have hi : ¬ isSpace c = true := fun h => hs ((isSpace_iff c).1 h)
        have hr : scanReads (c :: mem) = if (c = '+' ∨ c = '-') ∨ hexVal c ≠ none then 2 else 1 := by
          unfold scanReads
          rw [hcs, List.takeWhile_cons_of_neg hi, List.dropWhile_cons_of_neg hi]
          simp
        have hx : hexVal c ≠ none ↔ IsHex c := by
          constructor
          · intro h
            obtain ⟨x, hx⟩ := Option.ne_none_iff_exists'.1 h
            exact ⟨x, (hexVal_some_iff _ _).1 hx⟩
          · rintro ⟨x, hx⟩
            rw [(hexVal_some_iff _ _).2 hx]
            simp
        rw [hr]
        cases k with
        | zero =>
          refine iff_of_true ?_ (looksAt_zero _)
          split_ifs <;> omega
        | succ k =>
          rw [looksAt_other hs, ← hx, ← or_assoc]
          split_ifs with h
          · simp only [h, and_true]
            omega
          · exact iff_of_false (by omega) fun h' => h h'.2

theorem convertReads_looks (zx : Option Byte) (n i : Nat) (mem : List Char) :
    ((convertReads zx n i mem).2 = true ↔ ∀ j < n, scan zx (mem.drop (2 * j)) ≠ none) ∧
    ∀ p : Int, p ∈ (convertReads zx n i mem).1 ↔
      ∃ m < n, (∀ j < m, scan zx (mem.drop (2 * j)) ≠ none) ∧ ∃ k, LooksAt (mem.drop (2 * m)) k ∧ p = (2 * (i + m) + k : Nat) := by
  induction n generalizing i mem with
  | zero => simp [convertReads]
  | succ n ih =>
    have hhere : ∀ p : Int, p ∈ (List.range (scanReads mem)).map (fun k => ((2 * i + k : Nat) : Int)) ↔
        ∃ k, LooksAt mem k ∧ p = (2 * i + k : Nat) := by
      intro p
      simp only [List.mem_map, List.mem_range, scanReads_looks]
      exact exists_congr fun k => and_congr_right fun _ => eq_comm
    unfold convertReads
    cases hs : scan zx mem with
    | none =>
      simp only
      refine ⟨iff_of_false (by simp) fun h => h 0 (by omega) (by simpa using hs), fun p => ?_⟩
      rw [hhere]
      constructor
      · rintro ⟨k, hk, rfl⟩
        exact ⟨0, by omega, fun _ h => absurd h (Nat.not_lt_zero _), k, hk, by simp⟩
      · rintro ⟨m, hm, ha, k, hk, rfl⟩
        cases m with
        | zero => exact ⟨k, hk, by simp⟩
        | succ m => exact absurd (by simpa using hs) (ha 0 (by omega))
    | some b =>
      simp only
      obtain ⟨h1, h2⟩ := ih (i + 1) (mem.drop 2)
      have hd : ∀ j, (mem.drop 2).drop (2 * j) = mem.drop (2 * (j + 1)) := fun j => by
        rw [List.drop_drop]
        congr 1
        omega
      simp only [hd] at h1 h2
      have hall : ∀ n, (∀ j < n + 1, scan zx (mem.drop (2 * j)) ≠ none) ↔ ∀ j < n, scan zx (mem.drop (2 * (j + 1))) ≠ none := by
        intro n
        constructor
        · exact fun h j hj => h (j + 1) (by omega)
        · intro h j hj
          cases j with
          | zero => simp [hs]
          | succ j => exact h j (by omega)
      refine ⟨h1.trans (hall n).symm, fun p => ?_⟩
      rw [List.mem_append, hhere, h2]
      constructor
      · rintro (⟨k, hk, rfl⟩ | ⟨m, hm, ha, k, hk, rfl⟩)
        · exact ⟨0, by omega, fun _ h => absurd h (Nat.not_lt_zero _), k, hk, by simp⟩
        · exact ⟨m + 1, by omega, (hall m).2 ha, k, hk, by congr 1; omega⟩
      · rintro ⟨m, hm, ha, k, hk, rfl⟩
        cases m with
        | zero => exact .inl ⟨k, hk, by simp⟩
        | succ m => exact .inr ⟨m, by omega, (hall m).1 ha, k, hk, by congr 1; omega⟩

/-- C69, everything the daemon reads: the last character and the one before a line end; if an even number of characters is left, what
each conversion looks at, until one fails; and if none does, everything up to the first NUL. -/
theorem c69_exact (zx : Option Byte) (text stale : List Char) (p : Int) :
    p ∈ readPositions zx text stale ↔
      p = text.length - 1 ∨ p = (chomp text).length - 1 ∨
      (chomp (chomp text)).length % 2 = 0 ∧
        ((∃ i < (chomp (chomp text)).length / 2, (∀ j < i, scan zx ((text ++ stale).drop (2 * j)) ≠ none) ∧
            ∃ k, LooksAt ((text ++ stale).drop (2 * i)) k ∧ p = (2 * i + k : Nat)) ∨
          (∀ j < (chomp (chomp text)).length / 2, scan zx ((text ++ stale).drop (2 * j)) ≠ none) ∧
            ∃ q : Nat, p = q ∧ ∀ r < q, ∃ c, (text ++ stale)[r]? = some c ∧ c ≠ '\x00') := by
  have hn : ∀ (mem : List Char) (q : Nat), q < (cString mem).length + 1 ↔ ∀ r < q, ∃ c, mem[r]? = some c ∧ c ≠ '\x00' := by
    intro mem
    induction mem with
    | nil =>
      intro q
      cases q with
      | zero => simp
      | succ q =>
        refine iff_of_false (by simp [cString]) fun h => ?_
        obtain ⟨c, hc, -⟩ := h 0 (by omega)
        cases hc
    | cons a mem ih =>
      intro q
      cases q with
      | zero => simp
      | succ q =>
        by_cases ha : a = '\x00'
        · subst ha
          refine iff_of_false (by simp [cString]) fun h => ?_
          obtain ⟨c, hc, hx⟩ := h 0 (by omega)
          cases hc
          exact hx rfl
        · have : cString (a :: mem) = a :: cString mem := by simp [cString, ha]
          rw [this, List.length_cons, Nat.add_lt_add_iff_right, ih]
          constructor
          · intro h r hr
            cases r with
            | zero => exact ⟨a, rfl, ha⟩
            | succ r => exact h r (by omega)
          · exact fun h r hr => h (r + 1) (by omega)
  unfold readPositions
  simp only
  obtain ⟨h1, h2⟩ := convertReads_looks zx ((chomp (chomp text)).length / 2) 0 (text ++ stale)
  simp only [Nat.zero_add] at h2
  by_cases he : (chomp (chomp text)).length % 2 = 0
  · rw [if_neg (not_not.2 he)]
    simp only [he, true_and]
    generalize convertReads zx ((chomp (chomp text)).length / 2) 0 (text ++ stale) = x at h1 h2
    obtain ⟨reads, ok⟩ := x
    simp only at h1 h2
    cases ok with
    | false =>
      have h3 : ¬ ∀ j < (chomp (chomp text)).length / 2, scan zx ((text ++ stale).drop (2 * j)) ≠ none := fun h => Bool.noConfusion (h1.2 h)
      simp only [h3, false_and, or_false, List.mem_append, List.mem_cons, List.not_mem_nil, h2, or_assoc]
    | true =>
      have h3 := h1.1 rfl
      simp only [List.mem_append, List.mem_cons, List.not_mem_nil, or_false, h2, or_assoc, List.mem_map, List.mem_range, hn]
      refine or_congr_right (or_congr_right (or_congr_right ?_))
      constructor
      · rintro ⟨q, hq, rfl⟩
        exact ⟨h3, q, rfl, hq⟩
      · rintro ⟨-, q, rfl, hq⟩
        exact ⟨q, hq, rfl⟩
  · rw [if_pos he]
    simp only [he, false_and, or_false, List.mem_cons, List.not_mem_nil]

/-- A NUL among digits: the daemon looks behind it, at the white space and the NUL after that. -/
example : ∀ p : Int, p ∈ readPositions none ['1', '\x00', ' ', '5'] [' ', '\x00'] ↔ p = 3 ∨ p = 0 ∨ p = 1 ∨ p = 2 ∨ p = 4 := by
  have : readPositions none ['1', '\x00', ' ', '5'] [' ', '\x00'] = [3, 3, 0, 1, 2, 3, 4, 0, 1] := by decide +kernel
  rw [this]
  simp
  omega

end Knx
