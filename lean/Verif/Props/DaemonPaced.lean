import Verif.Spec.DaemonPaced
import Verif.Props.DaemonStream
import Verif.Props.EndToEnd

/-! # Clients of the daemon that send line by line: C112 -/

namespace Knx
open Spec Daemon Daemon.Sys

section
variable {zx : Option Byte} {packet : List Byte} {s : Sys} {made : List (List Byte)} {asked : Nat}

theorem piecesRead_append (fd : Nat) (es es' : List Daemon.Event) :
    piecesRead fd (es ++ es') = piecesRead fd es ++ piecesRead fd es' := by
  induction es with
  | nil => rfl
  | cons e es ih =>
    rcases e with f | r | ⟨f, _ | x, st⟩
    · exact ih
    · exact ih
    · exact ih
    · simp only [List.cons_append, piecesRead]
      split_ifs <;> simp [ih]

theorem allRead_append (es es' : List Daemon.Event) : allRead (es ++ es') = allRead es ++ allRead es' := by
  induction es with
  | nil => rfl
  | cons e es ih =>
    rcases e with f | r | ⟨f, _ | _ | ⟨c, x⟩, st⟩
    · exact ih
    · exact ih
    · exact ih
    · exact ih
    · simp [allRead, ih]

theorem piecesSent_cons (fd : Nat) (b : Bool) (a : Act) (as : List Act) :
    piecesSent fd b (a :: as) = piecesSent fd b [a] ++ piecesSent fd (upAfter fd b a) as := by
  cases b <;> cases a <;> simp [piecesSent, upAfter]
  split_ifs <;> simp

/-- What one action adds to the history: nothing, or what the daemon's step does. -/
theorem trace_act (h : Inv zx packet s made asked) (l : Limits) (a : Act) :
    (s.act zx l a).trace = s.trace ∨ ∃ e stale, a = .daemon stale ∧ (s.act zx l a).trace = s.trace ++ [e] ∧
      ∀ f x st, e = .input f (some x) st → x = [] ∨ ∃ c ∈ s.conns, c.fd = f ∧ x = c.input.take (packetLen * 2 + 1) := by
  rcases a with _ | ⟨fd, text⟩ | fd | fd | ⟨fd, n⟩ | data | _ | stale
  · exact .inl rfl
  · exact .inl rfl
  · exact .inl rfl
  · exact .inl rfl
  · exact .inl rfl
  · exact .inl rfl
  · exact .inl rfl
  · simp only [Sys.act]
    rcases hd : s.daemon zx l stale with _ | s'
    · exact .inl rfl
    · simp only [Option.getD_some]
      rcases daemon_cases h hd with ⟨x, todo⟩ | ⟨text, hw⟩ | ⟨text, fd, fds, g, hw, hg⟩ | ⟨todo, hw, ht, hn, he⟩ |
        ⟨rest, fd, w, hw, ht, hfd⟩ | ⟨rest, data, reports, hw, ht, hr⟩ | ⟨rest, c, hw, ht, hc, hi⟩ |
        ⟨rest, c, x, hw, ht, hc, hi, hp, hx⟩
      · exact .inl rfl
      · exact .inl rfl
      · exact .inl rfl
      · exact .inl rfl
      · exact .inr ⟨_, stale, rfl, rfl, nofun⟩
      · exact .inr ⟨_, stale, rfl, rfl, nofun⟩
      · refine .inr ⟨_, stale, rfl, rfl, fun f x st he => .inr ?_⟩
        simp only [Daemon.Event.input.injEq, Option.some.injEq] at he
        obtain ⟨rfl, rfl, rfl⟩ := he
        exact ⟨c, hc, rfl, rfl⟩
      · refine .inr ⟨_, stale, rfl, rfl, fun f y st he => .inl ?_⟩
        simp only [Daemon.Event.input.injEq] at he
        obtain ⟨rfl, rfl, rfl⟩ := he
        rcases hx with hx | hx
        · cases hx
        · exact Option.some.inj hx

/-- What one action does to a connection with at most one piece to be read, if another one is sent only after that. -/
theorem paced_act (h : Inv zx packet s made asked) (l : Limits) (a : Act) {c : Conn} (hc : c ∈ s.conns)
    (hlen : c.input.length ≤ packetLen * 2 + 1)
    (ha : ∀ text, a = .send c.fd text → c.input = [] ∧ text ≠ [] ∧ text.length ≤ packetLen * 2 + 1) {es : List Daemon.Event}
    (he : (s.act zx l a).trace = s.trace ++ es) (hk : Kept c.fd es) :
    ∃ c' ∈ (s.act zx l a).conns, c'.fd = c.fd ∧
      piecesRead c.fd es ++ unreadPiece c' = unreadPiece c ++ piecesSent c.fd (decide (c.peer = .up)) [a] ∧
      decide (c'.peer = .up) = upAfter c.fd (decide (c.peer = .up)) a ∧ c'.input.length ≤ packetLen * 2 + 1 := by
  obtain ⟨es', h1, h2⟩ := stream_act h l a
  obtain rfl : es' = es := List.append_cancel_left (h1.symm.trans he)
  obtain ⟨c', hc', hf, hr, hu⟩ := h2 c hc hk
  have key : piecesRead c.fd es' ++ unreadPiece c' = unreadPiece c ++ piecesSent c.fd (decide (c.peer = .up)) [a] ∧
      c'.input.length ≤ packetLen * 2 + 1 := by
    rcases trace_act h l a with ht | ⟨e, stale, rfl, ht, hin⟩
    · have : es' = [] := List.append_cancel_left (he.symm.trans (ht.trans (List.append_nil _).symm))
      subst this
      simp only [textRead, piecesRead, List.nil_append] at hr ⊢
      by_cases hsend : ∃ text, a = .send c.fd text ∧ c.peer = .up
      · obtain ⟨text, rfl, hup⟩ := hsend
        obtain ⟨g1, g2, g3⟩ := ha text rfl
        simp only [hup, decide_true, textSent, g1, List.nil_append, if_true, List.append_nil] at hr
        simp [unreadPiece, hr, g1, g2, g3, hup, piecesSent]
      · have e1 : textSent c.fd (decide (c.peer = .up)) [a] = [] := by
          by_cases hup : c.peer = .up
          · cases a <;> simp only [hup, decide_true, textSent]
            rename_i f text
            rw [if_neg (fun e => hsend ⟨text, by rw [e], hup⟩)]
          · simp [hup, textSent_false]
        have e2 : piecesSent c.fd (decide (c.peer = .up)) [a] = [] := by
          by_cases hup : c.peer = .up
          · cases a <;> simp only [hup, decide_true, piecesSent]
            rename_i f text
            rw [if_neg (fun e => hsend ⟨text, by rw [e], hup⟩)]
          · cases a <;> simp [hup, piecesSent]
        rw [e1, List.append_nil] at hr
        simp [unreadPiece, hr, e2, hlen]
    · have : es' = [e] := List.append_cancel_left (he.symm.trans ht)
      subst this
      have e1 : textSent c.fd (decide (c.peer = .up)) [.daemon stale] = [] := by
        by_cases hup : c.peer = .up <;> simp [textSent]
      have e2 : piecesSent c.fd (decide (c.peer = .up)) [.daemon stale] = [] := by
        by_cases hup : c.peer = .up <;> simp [piecesSent]
      rw [e1, List.append_nil] at hr
      simp only [e2, List.append_nil]
      rcases e with f | r | ⟨f, _ | x, st⟩
      · simp only [textRead, List.nil_append] at hr
        simp [unreadPiece, hr, hlen, piecesRead]
      · simp only [textRead, List.nil_append] at hr
        simp [unreadPiece, hr, hlen, piecesRead]
      · simp only [textRead, List.nil_append] at hr
        simp [unreadPiece, hr, hlen, piecesRead]
      · by_cases hfc : f = c.fd
        · subst hfc
          rcases hin _ _ _ rfl with rfl | ⟨y, hy, hyf, rfl⟩
          · exact absurd (List.mem_singleton.2 rfl) (hk st).2
          · obtain rfl := h.unique hy hc hyf
            rw [List.take_of_length_le hlen] at hr hk ⊢
            simp only [textRead, if_true, List.append_nil] at hr
            have hz : c'.input = [] := List.append_cancel_left (hr.trans (List.append_nil _).symm)
            have hn : y.input ≠ [] := fun e => (hk st).2 (by rw [e]; exact List.mem_singleton.2 rfl)
            simp [piecesRead, unreadPiece, hz, hn]
        · simp only [textRead, if_neg hfc, List.nil_append] at hr
          simp [unreadPiece, hr, hlen, piecesRead, hfc]
  exact ⟨c', hc', hf, key.1, hu, key.2⟩

theorem lineOfReport_size {text : List Char} (h : LineOfReport text) : text ≠ [] ∧ text.length ≤ packetLen * 2 + 1 := by
  obtain ⟨line, m, h1, h2, rfl⟩ := h
  refine ⟨by simp, ?_⟩
  rw [List.length_append, hexText_length h1, List.length_singleton]
  unfold packetLen
  omega

theorem paced_acts (h : Inv zx packet s made asked) (l : Limits) (as : List Act) {c : Conn} (hc : c ∈ s.conns)
    (hlen : c.input.length ≤ packetLen * 2 + 1) (hp : LineByLine zx l s c.fd as) {es : List Daemon.Event}
    (he : (s.acts zx l as).trace = s.trace ++ es) (hk : Kept c.fd es) :
    ∃ c' ∈ (s.acts zx l as).conns, c'.fd = c.fd ∧
      piecesRead c.fd es ++ unreadPiece c' = unreadPiece c ++ piecesSent c.fd (decide (c.peer = .up)) as := by
  induction as generalizing s made asked c es with
  | nil =>
    rw [acts_nil] at he
    have : es = [] := List.append_cancel_left (he.symm.trans (List.append_nil _).symm)
    subst this
    exact ⟨c, hc, rfl, by cases decide (c.peer = .up) <;> simp [piecesRead, piecesSent]⟩
  | cons a as ih =>
    rw [acts_cons] at he ⊢
    obtain ⟨e1, h1, -⟩ := stream_act h l a
    obtain ⟨e2, h2, -⟩ := stream_acts (h.act l a) l as
    have hes : es = e1 ++ e2 := by
      rw [h1, List.append_assoc] at h2
      exact List.append_cancel_left (he.symm.trans h2)
    subst hes
    rw [kept_append] at hk
    obtain ⟨c', hc', hf', hr', hu', hl'⟩ := paced_act h l a hc hlen (fun text ht => by
      subst ht
      obtain ⟨g1, g2⟩ := hp [] text (by simp)
      exact ⟨g2 c hc rfl, lineOfReport_size g1⟩) h1 hk.1
    have hp' : LineByLine zx l (s.act zx l a) c'.fd as := by
      intro bs' text hb
      have := hp (a :: bs') text (by rw [← hf']; simpa using hb)
      rw [acts_cons] at this
      rw [hf']
      exact this
    obtain ⟨c'', hc'', hf'', hr''⟩ := ih (h.act l a) hc' hl' hp' h2 (hf' ▸ hk.2)
    refine ⟨c'', hc'', hf''.trans hf', ?_⟩
    rw [hf', hu'] at hr''
    rw [piecesRead_append, piecesSent_cons, List.append_assoc, hr'', ← List.append_assoc, hr', List.append_assoc]

/-! ## What is written to the device -/

/-- Every piece that is read is answered by one report to the device, which begins with the octets if the piece is a line. -/
theorem device_reports (hp : packet.length = packetLen) (tr es : List Daemon.Event)
    (h : PossibleAll zx (Daemon.init packet) (tr ++ es)) :
    ∃ D, (Daemon.run zx (Daemon.init packet) (tr ++ es)).device = (Daemon.run zx (Daemon.init packet) tr).device ++ D ∧
      List.Forall₂ (fun x r => BeginsWith x.2 r) (allRead es) D := by
  induction es generalizing tr with
  | nil => exact ⟨[], by simp, .nil⟩
  | cons e es ih =>
    obtain ⟨D, h1, h2⟩ := ih (tr ++ [e]) (by simpa using h)
    rw [List.append_assoc, List.singleton_append] at h1
    rw [h1]
    have h0 := possibleAll_append h
    have hd : Daemon.run zx (Daemon.init packet) (tr ++ [e]) = Daemon.step zx (Daemon.run zx (Daemon.init packet) tr) e := by
      simp [Daemon.run]
    have none : (Daemon.run zx (Daemon.init packet) (tr ++ [e])).device = (Daemon.run zx (Daemon.init packet) tr).device →
        allRead (e :: es) = allRead es → ∃ D', (Daemon.run zx (Daemon.init packet) (tr ++ [e])).device ++ D =
          (Daemon.run zx (Daemon.init packet) tr).device ++ D' ∧ List.Forall₂ (fun x r => BeginsWith x.2 r) (allRead (e :: es)) D' :=
      fun g1 g2 => ⟨D, by rw [g1], by rw [g2]; exact h2⟩
    rcases e with f | r | ⟨f, _ | _ | ⟨c, x⟩, st⟩
    · exact none (by rw [hd]; rfl) rfl
    · exact none (by rw [hd]; rfl) rfl
    · exact none (by rw [hd, step_input, if_neg (by simp)]) rfl
    · exact none (by rw [hd, step_input, if_neg (by simp)]) rfl
    · have hpk := (holds_run zx (holds_init hp) h0).packet
      have hst : (Daemon.run zx (Daemon.init packet) (tr ++ [.input f (some (c :: x)) st])).device =
          (Daemon.run zx (Daemon.init packet) tr).device ++
            [(readFromClient zx (some (c :: x)) st (Daemon.run zx (Daemon.init packet) tr).packet).2.2.take packetLen] := by
        rw [hd, step_input, if_pos ⟨nofun, nofun⟩]
      refine ⟨(readFromClient zx (some (c :: x)) st (Daemon.run zx (Daemon.init packet) tr).packet).2.2.take packetLen :: D, ?_,
        .cons ⟨?_, ?_⟩ h2⟩
      · rw [hst, List.append_assoc, List.singleton_append]
      · rw [List.length_take, readFromClient_length, hpk]
        rfl
      · intro line m htext hx hm
        obtain ⟨report, g1, g2, -⟩ := c50_partial zx hp h0 f st hx hm (e := ['\n']) (by decide) (by simp)
        rw [← htext, hst] at g1
        have := List.append_cancel_left g1
        rw [List.singleton_inj.1 this]
        exact g2

end

/-- C112: what a client that waits until all it sent has been read before it sends the next line has sent, the daemon reads line
by line, but for a last line that is still to be read; and for everything the daemon reads, from whatever client, it writes
one report to the device, in the order of reading, which begins with the octets of the line. -/
theorem c112_paced (zx : Option Byte) {packet : List Byte} (hp : packet.length = packetLen) (l : Limits) (as bs : List Act)
    {c : Conn} (hc : c ∈ ((Sys.start packet).acts zx l as).conns) (hi : c.input = [])
    (hpace : LineByLine zx l ((Sys.start packet).acts zx l as) c.fd bs) :
    ∃ es, ((Sys.start packet).acts zx l (as ++ bs)).trace = ((Sys.start packet).acts zx l as).trace ++ es ∧
      (Kept c.fd es → ∃ c' ∈ ((Sys.start packet).acts zx l (as ++ bs)).conns, c'.fd = c.fd ∧
        piecesRead c.fd es ++ unreadPiece c' = piecesSent c.fd (decide (c.peer = .up)) bs) ∧
      ∃ reports, ((Sys.start packet).acts zx l (as ++ bs)).d.device = ((Sys.start packet).acts zx l as).d.device ++ reports ∧
        List.Forall₂ (fun x r => BeginsWith x.2 r) (allRead es) reports := by
  have hi1 := inv_start zx hp l as
  have hi2 := inv_start zx hp l (as ++ bs)
  obtain ⟨es, h1, -⟩ := stream_acts hi1 l bs
  rw [← acts_append] at h1
  refine ⟨es, h1, fun hk => ?_, ?_⟩
  · rw [acts_append] at h1 ⊢
    obtain ⟨c', g1, g2, g3⟩ := paced_acts hi1 l bs hc (by simp [hi]) hpace h1 hk
    refine ⟨c', g1, g2, ?_⟩
    simpa [unreadPiece, hi] using g3
  · rw [hi2.d, hi1.d, h1]
    exact device_reports hp _ _ (h1 ▸ hi2.possible)

theorem range_filter_one {n k : Nat} {p : Nat → Bool} (hk : k < n) (h : ∀ i < n, p i = true ↔ i = k) :
    (List.range n).filter p = [k] := by
  apply List.perm_singleton.1
  rw [List.perm_ext_iff_of_nodup (List.nodup_range.filter _) (List.nodup_singleton _)]
  intro i
  simp only [List.mem_filter, List.mem_range, List.mem_singleton]
  exact ⟨fun hi => (h i hi.1).1 hi.2, fun hi => hi ▸ ⟨hk, (h k hk).2 rfl⟩⟩

/-- Without waiting it is not so: whenever the daemon is at rest and a client sends two lines at once, of up to 55 octets
together, neither is written to the device, but once more what the daemon has in its packet. -/
theorem c112_hasty (zx : Option Byte) {packet : List Byte} (hp : packet.length = packetLen) (l : Limits) (as : List Act)
    (hs : ((Sys.start packet).acts zx l as).stopped = none) (hidle : Idle ((Sys.start packet).acts zx l as))
    {c : Conn} (hc : c ∈ ((Sys.start packet).acts zx l as).conns) (hfd : c.fd < 1024) {x y : List Char} {m n : Msg}
    (hx : HexText x m) (hy : HexText y n) (hn : n ≠ []) (hmn : m.length + n.length ≤ 55) (st st' : List Char) :
    let after := (Sys.start packet).acts zx l
      (as ++ [.send c.fd (x ++ ['\n']), .send c.fd (y ++ ['\n']), .daemon st, .daemon st'])
    after.d.device = ((Sys.start packet).acts zx l as).d.device ++ [((Sys.start packet).acts zx l as).d.packet] ∧
    ∀ c' ∈ after.conns, c'.fd = c.fd → c'.input = [] := by
  intro after
  show (Sys.acts zx l _ _).d.device = _ ∧ ∀ c' ∈ (Sys.acts zx l _ _).conns, _
  rw [acts_append]
  have hi := inv_start zx hp l as
  generalize (Sys.start packet).acts zx l as = s at hs hidle hc hi ⊢
  obtain ⟨i1, i2, i3, i4, i5, i6⟩ := hidle
  obtain ⟨hin, hup⟩ := i6 c hc hfd
  have hlen : (x ++ ['\n'] ++ (y ++ ['\n'])).length ≤ packetLen * 2 + 1 := by
    have h1 := hexText_length hx
    have h2 := hexText_length hy
    simp only [List.length_append, List.length_cons, List.length_nil, packetLen]
    omega
  have hne : x ++ ['\n'] ++ (y ++ ['\n']) ≠ [] := by simp
  -- both lines are sent
  have hi2 := (hi.act l (.send c.fd (x ++ ['\n']))).act l (.send c.fd (y ++ ['\n']))
  have e2 : (s.act zx l (.send c.fd (x ++ ['\n']))).act zx l (.send c.fd (y ++ ['\n'])) =
      { s with conns := s.conns.map fun z => if z.fd = c.fd then { c with input := x ++ ['\n'] ++ (y ++ ['\n']) } else z } := by
    simp only [Sys.act, Sys.update, List.map_map]
    congr 1
    apply List.map_congr_left
    intro z hz
    by_cases hzf : z.fd = c.fd
    · obtain rfl := hi.unique hz hc hzf
      simp [hup, hin]
    · simp [hzf]
  rw [acts_cons, acts_cons, e2]
  rw [e2] at hi2
  generalize hs2 : ({ s with conns := s.conns.map fun z => if z.fd = c.fd then
    { c with input := x ++ ['\n'] ++ (y ++ ['\n']) } else z } : Sys) = s2 at hi2 ⊢
  have hd2 : s2.d = s.d := by rw [← hs2]
  have hc2 : ({ c with input := x ++ ['\n'] ++ (y ++ ['\n']) } : Conn) ∈ s2.conns := by
    rw [← hs2]
    exact List.mem_map.2 ⟨c, hc, by simp⟩
  have hother : ∀ z ∈ s2.conns, z.fd ≠ c.fd → z ∈ s.conns := by
    rw [← hs2]
    intro z hz hzf
    obtain ⟨w, hw, rfl⟩ := List.mem_map.1 hz
    split_ifs at hzf ⊢ with hwf
    · exact absurd rfl hzf
    · exact hw
  have hhigh := (hi.high c hc).1
  -- it finds only this client ready
  have hready : (List.range fdSetSize).filter s2.ready = [c.fd] := by
    refine range_filter_one hfd fun i hi' => ?_
    unfold Sys.ready
    have hb : s2.backlog = 0 := by rw [← hs2]; exact i3
    have hr : s2.reports = [] := by rw [← hs2]; exact i4
    have hu : s2.unplugged = false := by rw [← hs2]; exact i5
    unfold deviceFd at hhigh
    unfold sockFd deviceFd
    split_ifs with h3 h4
    · simp only [hb, lt_irrefl, decide_false, Bool.false_eq_true, false_iff]
      omega
    · simp only [hr, hu, ne_eq, not_true_eq_false, decide_false, Bool.or_false, Bool.false_eq_true, false_iff]
      omega
    · simp only [Bool.and_eq_true, decide_eq_true_eq, List.any_eq_true, Conn.ready]
      constructor
      · rintro ⟨-, z, hz, hzf, hzr⟩
        by_contra hne'
        have := i6 z (hother z hz (by omega)) (by unfold fdSetSize at hi'; omega)
        rcases hzr with hzr | hzr
        · exact hzr this.1
        · exact hzr this.2
      · rintro rfl
        refine ⟨?_, _, hc2, rfl, .inl hne⟩
        rw [← hi2.fds]
        exact List.mem_map.2 ⟨_, hc2, rfl⟩
  have hs2' : s2.stopped = none := by rw [← hs2]; exact hs
  have hw2 : s2.writing = none := by rw [← hs2]; exact i1
  have ht2 : s2.todo = [] := by rw [← hs2]; exact i2
  have hu2 : s2.unplugged = false := by rw [← hs2]; exact i5
  have hcn : Sys.conn { s2 with todo := [] } c.fd = some { c with input := x ++ ['\n'] ++ (y ++ ['\n']) } := hi2.conn_eq hc2
  rw [acts_cons, acts_cons, acts_nil]
  have e3 : s2.act zx l (.daemon st) = { s2 with todo := [c.fd] } := by
    simp only [Sys.act]
    rw [daemon_select hs2' hw2 ht2, hready]
    simp
  rw [e3]
  simp only [Sys.act]
  rw [daemon_todo (s := { s2 with todo := [c.fd] }) (i := c.fd) (rest := []) hs2' hw2 rfl,
    if_neg (by unfold deviceFd at hhigh; unfold sockFd; omega), if_neg (by omega)]
  simp only [Option.getD_some]
  unfold inputOne
  rw [hcn]
  simp only [ne_eq, hne, not_false_eq_true, if_true, hu2, Bool.false_eq_true, if_false, readResult]
  rw [List.take_of_length_le hlen, two_lines zx _ _ _ hx hy hn, hd2, List.take_of_length_le hi.holds.packet.le]
  refine ⟨rfl, fun c' hc' hf' => ?_⟩
  simp only [Sys.update] at hc'
  obtain ⟨w, hw, rfl⟩ := List.mem_map.1 hc'
  have hwf : w.fd = c.fd := by
    split_ifs at hf' with h
    · exact h
    · exact hf'
  obtain rfl := hi2.unique hw hc2 hwf
  simp only [if_true]
  exact List.drop_of_length_le hlen

/-- The client with descriptor 5 sends a line, waits for the daemon to read it, and sends the next one; the other one sends text
in pieces of its own. -/
def exPaced : List Act :=
  [.send 5 "0102\n".toList, .send 6 "zz".toList, .daemon [], .daemon [], .daemon [], .send 5 "03\n".toList, .daemon [], .daemon [],
    .send 5 "04\n".toList]

theorem lineOfReport_of {text : List Char} (line : List Char) (m : Msg) (h : text = line ++ ['\n']) (hx : HexText line m)
    (hm : m.length ≤ 56) : LineOfReport text := ⟨line, m, hx, hm, h⟩

theorem exPaced_paced : LineByLine none exLimits ((Sys.start exPacket).acts none exLimits exTwo) 5 exPaced := by
  intro bs' text h
  have hle := h.length_le
  have htake := List.prefix_iff_eq_take.1 h
  rw [List.length_append, List.length_singleton] at hle htake
  have hb : bs' = exPaced.take bs'.length := List.prefix_iff_eq_take.1 ((List.prefix_append _ _).trans h)
  have hl : exPaced[bs'.length]? = some (.send 5 text) := by
    obtain ⟨r, hr⟩ := h
    rw [← hr]
    simp
  have hn : bs'.length < 9 := by
    have : exPaced.length = 9 := rfl
    omega
  clear h hle htake
  generalize bs'.length = n at hb hl hn
  subst hb
  have key : ∀ n < 9, ∀ t, exPaced[n]? = some (.send 5 t) →
      (t = "0102\n".toList ∨ t = "03\n".toList ∨ t = "04\n".toList) ∧
      ∀ c ∈ (((Sys.start exPacket).acts none exLimits exTwo).acts none exLimits (exPaced.take n)).conns, c.fd = 5 →
        c.input = [] := by
    intro n hn t ht
    interval_cases n
    all_goals simp only [exPaced, List.getElem?_cons_zero, List.getElem?_cons_succ, Option.some.injEq, Act.send.injEq,
      reduceCtorEq, false_and, true_and, Nat.reduceEqDiff] at ht
    · exact ⟨.inl ht.symm, by decide +kernel⟩
    · exact ⟨.inr (.inl ht.symm), by decide +kernel⟩
    · exact ⟨.inr (.inr ht.symm), by decide +kernel⟩
  obtain ⟨h1, h2⟩ := key n hn text hl
  refine ⟨?_, h2⟩
  rcases h1 with rfl | rfl | rfl
  · exact lineOfReport_of "0102".toList [1, 2] rfl (by decide) (by decide)
  · exact lineOfReport_of "03".toList [3] rfl (by decide) (by decide)
  · exact lineOfReport_of "04".toList [4] rfl (by decide) (by decide)

example := c112_paced none (packet := exPacket) rfl exLimits exTwo exPaced (c := { fd := 5 }) (by decide +kernel) rfl exPaced_paced

/-- Two lines have been read, the third has not. -/
example : ((Sys.start exPacket).acts none exLimits (exTwo ++ exPaced)).trace =
    [.accept 5, .accept 6, .input 5 (some "0102\n".toList) [], .input 6 (some "zz".toList) [],
      .input 5 (some "03\n".toList) []] := by decide +kernel

example := c112_hasty none (packet := exPacket) rfl exLimits exTwo (by decide +kernel) (by decide +kernel) (c := { fd := 5 })
  (by decide +kernel) (by decide) (x := "0102".toList) (y := "03".toList) (m := [1, 2]) (n := [3]) (by decide) (by decide) (by decide)
  (by decide) [] []

end Knx
