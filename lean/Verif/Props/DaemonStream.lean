import Verif.Spec.DaemonStream
import Verif.Props.DaemonSystem

/-! # What passes the daemon: C77 -/

namespace Knx
open Spec Daemon Daemon.Sys

section
variable {zx : Option Byte} {l : Limits} {packet : List Byte} {s : Sys} {made : List (List Byte)} {asked : Nat}

/-- What a step of the daemon does. -/
inductive DaemonCase (zx : Option Byte) (s : Sys) (stale : List Char) : Sys → Prop
  | stop (x : Stop) (todo : List Nat) (ht : todo <:+ s.todo) : DaemonCase zx s stale { s with todo := todo, stopped := some x }
  | written (text : List Char) (hw : s.writing = some (text, [])) : DaemonCase zx s stale { s with writing := none }
  | write (text : List Char) (fd : Nat) (fds : List Nat) (g : Conn → Conn) (hw : s.writing = some (text, fd :: fds))
      (hg : ∀ c, (g c).fd = c.fd ∧ (g c).input = c.input ∧ (g c).peer = c.peer) :
      DaemonCase zx s stale { s with
        writing := some (text, fds), wrote := s.wrote ++ [(fd, text)], conns := s.conns.map g }
  | select (todo : List Nat) (hw : s.writing = none) (ht : s.todo = []) (hn : todo ≠ [])
      (h : todo = (List.range fdSetSize).filter s.ready) : DaemonCase zx s stale { s with todo := todo }
  | accept (rest : List Nat) (fd : Nat) (w : Bool) (hw : s.writing = none) (ht : s.todo = sockFd :: rest)
      (hfd : ∀ c ∈ s.conns, c.fd ≠ fd) :
      DaemonCase zx s stale { s with
        todo := rest, d := step zx s.d (.accept fd), trace := s.trace ++ [.accept fd], backlog := s.backlog - 1,
        conns := { fd := fd } :: s.conns, wild := w }
  | report (rest : List Nat) (data : List Byte) (reports : List (List Byte)) (hw : s.writing = none)
      (ht : s.todo = deviceFd :: rest) (hr : s.reports = data :: reports) :
      DaemonCase zx s stale { s with
        todo := rest, d := step zx s.d (.report data), trace := s.trace ++ [.report data], reports := reports,
        writing := some (clientText (overwrite data s.d.packet) data.length, inTable s.d) }
  | read (rest : List Nat) (c : Conn) (hw : s.writing = none) (ht : s.todo = c.fd :: rest) (hc : c ∈ s.conns)
      (hi : c.input ≠ []) :
      DaemonCase zx s stale { s with
        todo := rest, d := step zx s.d (.input c.fd (some (c.input.take (packetLen * 2 + 1))) stale),
        trace := s.trace ++ [.input c.fd (some (c.input.take (packetLen * 2 + 1))) stale],
        conns := s.conns.map fun x => if x.fd = c.fd then { x with input := x.input.drop (packetLen * 2 + 1) } else x }
  | close (rest : List Nat) (c : Conn) (x : Option (List Char)) (hw : s.writing = none) (ht : s.todo = c.fd :: rest)
      (hc : c ∈ s.conns) (hi : c.input = []) (hp : c.peer ≠ .up) (hx : x = none ∨ x = some []) :
      DaemonCase zx s stale { s with
        todo := rest, d := step zx s.d (.input c.fd x stale), trace := s.trace ++ [.input c.fd x stale],
        conns := s.conns.filter fun y => decide (y.fd ≠ c.fd) }

theorem daemon_cases (h : Inv zx packet s made asked) {stale : List Char} {s' : Sys} (hs : s.daemon zx l stale = some s') :
    DaemonCase zx s stale s' := by
  have hst : s.stopped = none := by
    by_contra hst
    unfold Sys.daemon at hs
    rw [if_pos hst] at hs
    cases hs
  have hid : ∀ c : Conn, c = { c with } := fun _ => rfl
  rcases hw : s.writing with _ | ⟨text, _ | ⟨fd, fds⟩⟩
  · rcases ht : s.todo with _ | ⟨i, rest⟩
    · rw [daemon_select hst hw ht] at hs
      split_ifs at hs with hn
      cases hs
      exact .select _ hw ht hn rfl
    · rw [daemon_todo hst hw ht] at hs
      split_ifs at hs with h3 h4
      · cases hs
        subst h3
        unfold acceptOne
        rcases hf : freeFd l { s with todo := rest } with _ | fd
        · exact .stop _ _ (ht ▸ List.suffix_cons _ _)
        · exact .accept rest fd _ hw ht (Inv.freeFd_some hf).2.1
      · cases hs
        subst h4
        unfold reportOne
        by_cases hu : s.unplugged = true
        · rw [if_pos hu]
          exact .stop _ _ (ht ▸ List.suffix_cons _ _)
        · rw [if_neg hu]
          rcases hr : s.reports with _ | ⟨data, reports⟩
          · rcases h.todoDevice (by simp [ht]) with h1 | h1
            · exact absurd hr h1
            · exact absurd h1 hu
          · simp only
            rw [h.table_pos]
            exact .report rest data reports hw ht hr
      · cases hs
        obtain ⟨c, hc, rfl, hcr⟩ := h.todoClient i (by simp [ht]) h3 h4
        have hcn : Sys.conn { s with todo := rest } c.fd = some c := h.conn_eq hc
        unfold inputOne
        rw [hcn]
        simp only
        split_ifs with hin hu
        · exact .stop _ _ (ht ▸ List.suffix_cons _ _)
        · rw [readResult, if_pos hin]
          exact .read rest c hw ht hc hin
        · refine .close rest c _ hw ht hc (not_not.1 hin) ?_ ?_
          · exact hcr.resolve_left hin
          · rw [readResult, if_neg hin]
            split_ifs <;> simp
  · rw [daemon_end hst hw] at hs
    cases hs
    exact .written text hw
  · rw [daemon_write hst hw] at hs
    unfold writeOne at hs
    obtain ⟨c, hc, hcf⟩ := (h.writing _ _ hw).2 fd List.mem_cons_self
    have hcn : s.conn fd = some c := hcf ▸ h.conn_eq hc
    rw [hcn] at hs
    simp only at hs
    split at hs
    · split_ifs at hs
      cases hs
      exact .write text fd fds _ hw fun c => by split_ifs <;> exact ⟨rfl, rfl, rfl⟩
    · split_ifs at hs
      cases hs
      exact .write text fd fds _ hw fun c => by split_ifs <;> exact ⟨rfl, rfl, rfl⟩
    · split_ifs at hs
      · cases hs
        exact .write text fd fds _ hw fun c => by split_ifs <;> exact ⟨rfl, rfl, rfl⟩
      · cases hs
        exact .stop _ s.todo List.suffix_rfl

/-! ## The text of a client -/

theorem textRead_append (fd : Nat) (es es' : List Daemon.Event) :
    textRead fd (es ++ es') = textRead fd es ++ textRead fd es' := by
  induction es with
  | nil => rfl
  | cons e es ih =>
    rcases e with f | r | ⟨f, _ | x, st⟩
    · exact ih
    · exact ih
    · exact ih
    · simp only [List.cons_append, textRead]
      split_ifs <;> simp [ih]

/-- Whether the client's end of a connection is still open after an action. -/
def upAfter (fd : Nat) (b : Bool) : Act → Bool
  | .close f => b && decide (f ≠ fd)
  | .reset f => b && decide (f ≠ fd)
  | _ => b

theorem textSent_cons (fd : Nat) (b : Bool) (a : Act) (as : List Act) :
    textSent fd b (a :: as) = textSent fd b [a] ++ textSent fd (upAfter fd b a) as := by
  cases b <;> cases a <;> simp [textSent, upAfter]
  split_ifs <;> simp

theorem textSent_false (fd : Nat) (as : List Act) : textSent fd false as = [] := by
  induction as with
  | nil => rfl
  | cons a as ih => cases a <;> exact ih

theorem kept_append (fd : Nat) (es es' : List Daemon.Event) : Kept fd (es ++ es') ↔ Kept fd es ∧ Kept fd es' := by
  unfold Kept
  simp only [List.mem_append, not_or]
  exact ⟨fun h => ⟨fun st => ⟨(h st).1.1, (h st).2.1⟩, fun st => ⟨(h st).1.2, (h st).2.2⟩⟩,
    fun h st => ⟨⟨(h.1 st).1, (h.2 st).1⟩, ⟨(h.1 st).2, (h.2 st).2⟩⟩⟩

/-- What one action does to a connection the daemon does not close. -/
theorem stream_act (h : Inv zx packet s made asked) (l : Limits) (a : Act) :
    ∃ es, (s.act zx l a).trace = s.trace ++ es ∧ ∀ c ∈ s.conns, Kept c.fd es →
      ∃ c' ∈ (s.act zx l a).conns, c'.fd = c.fd ∧
        textRead c.fd es ++ c'.input = c.input ++ textSent c.fd (decide (c.peer = .up)) [a] ∧
        decide (c'.peer = .up) = upAfter c.fd (decide (c.peer = .up)) a := by
  -- an action that changes the connection with a descriptor
  have upd : ∀ (fd : Nat) (f : Conn → Conn) (a : Act), (∀ c, (f c).fd = c.fd) → s.act zx l a = s.update fd f →
      (∀ c : Conn, (if c.fd = fd then f c else c).input = c.input ++ textSent c.fd (decide (c.peer = .up)) [a]) →
      (∀ c : Conn, decide ((if c.fd = fd then f c else c).peer = .up) = upAfter c.fd (decide (c.peer = .up)) a) →
      ∃ es, (s.act zx l a).trace = s.trace ++ es ∧ ∀ c ∈ s.conns, Kept c.fd es →
      ∃ c' ∈ (s.act zx l a).conns, c'.fd = c.fd ∧
        textRead c.fd es ++ c'.input = c.input ++ textSent c.fd (decide (c.peer = .up)) [a] ∧
        decide (c'.peer = .up) = upAfter c.fd (decide (c.peer = .up)) a := by
    intro fd f a hf he h1 h2
    rw [he]
    refine ⟨[], by simp [Sys.update], fun c hc _ => ⟨_, List.mem_map.2 ⟨c, hc, rfl⟩, ?_, h1 c, h2 c⟩⟩
    split_ifs
    · exact hf c
    · rfl
  rcases a with _ | ⟨fd, text⟩ | fd | fd | ⟨fd, n⟩ | data | _ | stale
  · exact ⟨[], by simp [Sys.act], fun c hc _ => ⟨c, hc, rfl, by simp [textRead, textSent], rfl⟩⟩
  · refine upd fd _ _ (fun c => by split_ifs <;> rfl) rfl (fun c => ?_) (fun c => ?_)
    · by_cases hcf : c.fd = fd
      · by_cases hp : c.peer = .up <;> simp [hcf, hp, textSent]
      · by_cases hp : c.peer = .up <;> simp [hcf, hp, textSent, Ne.symm hcf]
    · simp only [upAfter]
      split_ifs <;> rfl
  · refine upd fd _ _ (fun c => by split_ifs <;> rfl) rfl (fun c => ?_) (fun c => ?_)
    · by_cases hp : c.peer = .up <;> by_cases hcf : c.fd = fd <;> simp [hp, hcf, textSent]
    · by_cases hcf : c.fd = fd
      · by_cases hp : c.peer = .up <;> simp [hcf, hp, upAfter]
      · simp [hcf, upAfter, Ne.symm hcf]
  · refine upd fd Conn.onReset _ (fun c => ?_) rfl (fun c => ?_) (fun c => ?_)
    · unfold Conn.onReset
      split <;> (try split_ifs) <;> rfl
    · have : (if c.fd = fd then Conn.onReset c else c).input = c.input := by
        split_ifs
        · unfold Conn.onReset
          split <;> (try split_ifs) <;> rfl
        · rfl
      rw [this]
      by_cases hp : c.peer = .up <;> simp [hp, textSent]
    · by_cases hcf : c.fd = fd
      · rw [if_pos hcf]
        unfold Conn.onReset
        rcases hp : c.peer with _ | _ | _
        · simp [upAfter, hcf]
        · simp only
          split_ifs <;> simp [upAfter, hp]
        · simp [upAfter, hp]
      · simp [hcf, upAfter, Ne.symm hcf]
  · refine upd fd (fun c => { c with unread := c.unread - n }) _ (fun c => rfl) rfl (fun c => ?_) (fun c => ?_)
    · by_cases hp : c.peer = .up <;> simp only [hp, textSent, List.append_nil, decide_true, decide_false] <;>
        split_ifs <;> rfl
    · simp only [upAfter]
      split_ifs <;> rfl
  · exact ⟨[], by simp [Sys.act], fun c hc _ => ⟨c, hc, rfl, by by_cases hp : c.peer = .up <;> simp [textRead, textSent], rfl⟩⟩
  · exact ⟨[], by simp [Sys.act], fun c hc _ => ⟨c, hc, rfl, by by_cases hp : c.peer = .up <;> simp [textRead, textSent], rfl⟩⟩
  · simp only [Sys.act]
    have hts : ∀ c : Conn, textSent c.fd (decide (c.peer = .up)) [.daemon stale] = [] := fun c => by
      by_cases hp : c.peer = .up <;> simp [textSent]
    simp only [hts, upAfter, List.append_nil]
    rcases hd : s.daemon zx l stale with _ | s'
    · exact ⟨[], by simp, fun c hc _ => ⟨c, hc, rfl, by simp [textRead], rfl⟩⟩
    · simp only [Option.getD_some]
      rcases daemon_cases h hd with ⟨x, todo⟩ | ⟨text, hw⟩ | ⟨text, fd, fds, g, hw, hg⟩ | ⟨todo, hw, ht, hn, he⟩ |
        ⟨rest, fd, w, hw, ht, hfd⟩ | ⟨rest, data, reports, hw, ht, hr⟩ | ⟨rest, c, hw, ht, hc, hi⟩ |
        ⟨rest, c, x, hw, ht, hc, hi, hp, hx⟩
      · exact ⟨[], by simp, fun c hc _ => ⟨c, hc, rfl, by simp [textRead], rfl⟩⟩
      · exact ⟨[], by simp, fun c hc _ => ⟨c, hc, rfl, by simp [textRead], rfl⟩⟩
      · refine ⟨[], by simp, fun c hc _ => ⟨g c, List.mem_map.2 ⟨c, hc, rfl⟩, (hg c).1, by simp [textRead, (hg c).2.1], ?_⟩⟩
        rw [(hg c).2.2]
      · exact ⟨[], by simp, fun c hc _ => ⟨c, hc, rfl, by simp [textRead], rfl⟩⟩
      · exact ⟨_, rfl, fun c hc _ => ⟨c, List.mem_cons_of_mem _ hc, rfl, by simp [textRead], rfl⟩⟩
      · exact ⟨_, rfl, fun c hc _ => ⟨c, hc, rfl, by simp [textRead], rfl⟩⟩
      · refine ⟨_, rfl, fun y hy _ => ⟨_, List.mem_map.2 ⟨y, hy, rfl⟩, ?_, ?_, ?_⟩⟩
        · split_ifs <;> rfl
        · by_cases hyc : y.fd = c.fd
          · rw [if_pos hyc, h.unique hy hc hyc]
            simp [textRead]
          · rw [if_neg hyc]
            simp [textRead, Ne.symm hyc]
        · split_ifs <;> rfl
      · refine ⟨_, rfl, fun y hy hk => ?_⟩
        have hyc : y.fd ≠ c.fd := by
          intro he
          rcases hx with rfl | rfl
          · exact (hk stale).1 (by simp [he])
          · exact (hk stale).2 (by simp [he])
        refine ⟨y, List.mem_filter.2 ⟨hy, by simpa using hyc⟩, rfl, ?_, rfl⟩
        rcases hx with rfl | rfl <;> simp [textRead, Ne.symm hyc]

theorem stream_acts (h : Inv zx packet s made asked) (l : Limits) (as : List Act) :
    ∃ es, (s.acts zx l as).trace = s.trace ++ es ∧ ∀ c ∈ s.conns, Kept c.fd es →
      ∃ c' ∈ (s.acts zx l as).conns, c'.fd = c.fd ∧
        textRead c.fd es ++ c'.input = c.input ++ textSent c.fd (decide (c.peer = .up)) as := by
  induction as generalizing s made asked with
  | nil => exact ⟨[], by simp [acts_nil], fun c hc _ => ⟨c, hc, rfl, by simp [textRead, textSent]⟩⟩
  | cons a as ih =>
    rw [acts_cons]
    obtain ⟨es, h1, h2⟩ := stream_act h l a
    obtain ⟨es', h3, h4⟩ := ih (h.act l a)
    refine ⟨es ++ es', by rw [h3, h1, List.append_assoc], fun c hc hk => ?_⟩
    rw [kept_append] at hk
    obtain ⟨c', hc', hf', hr', hp'⟩ := h2 c hc hk.1
    obtain ⟨c'', hc'', hf'', hr''⟩ := h4 c' hc' (hf' ▸ hk.2)
    refine ⟨c'', hc'', hf''.trans hf', ?_⟩
    rw [hf', hp'] at hr''
    rw [textRead_append, textSent_cons, List.append_assoc, hr'', ← List.append_assoc, hr', List.append_assoc]

/-! ## The reports for a client -/

theorem linesTo_append (fd : Nat) (a b : List (Nat × List Char)) : linesTo fd (a ++ b) = linesTo fd a ++ linesTo fd b := by
  induction a with
  | nil => rfl
  | cons x a ih =>
    obtain ⟨f, t⟩ := x
    simp only [List.cons_append, linesTo]
    split_ifs <;> simp [ih]

theorem linesTo_map (fd : Nat) (text : List Char) {fds : List Nat} (hn : fds.Nodup) :
    linesTo fd (fds.map fun f => (f, text)) = if fd ∈ fds then [text] else [] := by
  induction fds with
  | nil => rfl
  | cons f fds ih =>
    rw [List.nodup_cons] at hn
    simp only [List.map_cons, linesTo, ih hn.2]
    by_cases hf : f = fd
    · subst hf
      simp [hn.1]
    · simp [hf, Ne.symm hf]

theorem reportLine_text (data packet : List Byte) : ReportLine data (clientText (overwrite data packet) data.length) := by
  refine ⟨hexLower data, ?_, ?_, ?_⟩
  · induction data with
    | nil => trivial
    | cons b m ih =>
      have hb := b.isLt
      exact ⟨hexDigitLower_spec (by omega), hexDigitLower_spec (by omega), ih⟩
  · intro c hc
    have key : ∀ n, n < 16 → (hexDigitLower n).isUpper = false := by decide
    simp only [hexLower, List.mem_flatMap, List.mem_cons, List.not_mem_nil, or_false] at hc
    obtain ⟨b, -, rfl | rfl⟩ := hc
    · exact key _ (by have := b.isLt; omega)
    · exact key _ (by omega)
  · unfold clientText overwrite
    rw [List.take_left' rfl]

theorem table_positive {d : Dmn} {cl : List Nat} (h : Holds d cl) :
    ((d.slots.filterMap id).filter fun fd => decide (0 < fd)) = inTable d := by
  unfold inTable
  rw [List.filter_eq_self]
  exact fun fd hm => by simpa using h.pos fd (h.sub fd hm)

/-- A client of the table stays there until it is closed, and one that is not in it does not get into it. -/
theorem table_step (zx : Option Byte) {d : Dmn} {cl : List Nat} (h : Holds d cl) {e : Daemon.Event} (he : Possible d e)
    {fd : Nat} (hfd : fd ∈ cl) (hk : Kept fd [e]) :
    fd ∈ clientsFrom cl [e] ∧ (fd ∈ inTable (Daemon.step zx d e) ↔ fd ∈ inTable d) ∧
    ∃ lines, linesTo fd (Daemon.step zx d e).sent = linesTo fd d.sent ++ lines ∧
      (fd ∈ inTable d → List.Forall₂ ReportLine (reportsSeen [e]) lines) ∧ (fd ∉ inTable d → lines = []) := by
  rcases e with f | data | ⟨f, x, st⟩
  · have hne : fd ≠ f := fun hf => he.2 (h.active ▸ hf ▸ hfd)
    refine ⟨List.mem_cons_of_mem _ hfd, ?_, [], by simp [Daemon.step], fun _ => .nil, fun _ => rfl⟩
    simp only [Daemon.step, inTable]
    by_cases hn : none ∈ d.slots
    · rw [(fillSlot_free f hn).mem_iff]
      simp [hne]
    · rw [fillSlot_full f hn]
  · refine ⟨hfd, Iff.rfl, ?_⟩
    have hs : (Daemon.step zx d (.report data)).sent =
        d.sent ++ (inTable d).map fun fd => (fd, clientText (overwrite data d.packet) data.length) := by
      simp only [Daemon.step]
      rw [table_positive h]
    rw [hs]
    refine ⟨_, by rw [linesTo_append, linesTo_map _ _ h.table], fun hm => ?_, fun hm => by rw [if_neg hm]⟩
    rw [if_pos hm]
    exact .cons (reportLine_text _ _) .nil
  · by_cases hx : x ≠ none ∧ x ≠ some []
    · rw [step_input, if_pos hx]
      refine ⟨?_, Iff.rfl, [], by simp, fun _ => .nil, fun _ => rfl⟩
      rcases x with _ | _ | _
      · exact absurd rfl hx.1
      · exact absurd rfl hx.2
      · exact hfd
    · have hne : fd ≠ f := by
        rintro rfl
        apply hx
        constructor
        · rintro rfl
          exact (hk st).1 List.mem_cons_self
        · rintro rfl
          exact (hk st).2 List.mem_cons_self
      rw [step_input, if_neg hx]
      refine ⟨?_, ?_, [], by simp, fun _ => .nil, fun _ => rfl⟩
      · rcases x with _ | _ | _
        · exact (List.mem_erase_of_ne hne).2 hfd
        · exact (List.mem_erase_of_ne hne).2 hfd
        · exact absurd ⟨nofun, nofun⟩ hx
      · simp only [inTable]
        rw [clearSlot_erase, List.mem_erase_of_ne hne]

theorem table_run (zx : Option Byte) {d : Dmn} {cl : List Nat} (h : Holds d cl) {es : List Daemon.Event}
    (he : PossibleAll zx d es) {fd : Nat} (hfd : fd ∈ cl) (hk : Kept fd es) :
    ∃ lines, linesTo fd (Daemon.run zx d es).sent = linesTo fd d.sent ++ lines ∧
      (fd ∈ inTable d → List.Forall₂ ReportLine (reportsSeen es) lines) ∧ (fd ∉ inTable d → lines = []) := by
  induction es generalizing d cl with
  | nil => exact ⟨[], by simp [Daemon.run], fun _ => .nil, fun _ => rfl⟩
  | cons e es ih =>
    rw [show e :: es = [e] ++ es from rfl, kept_append] at hk
    obtain ⟨h1, h2, lines, h3, h4, h5⟩ := table_step zx h he.1 hfd hk.1
    obtain ⟨lines', h6, h7, h8⟩ := ih (holds_step zx h he.1).1 he.2 h1 hk.2
    rw [run_cons, show e :: es = [e] ++ es from rfl, reportsSeen_append]
    refine ⟨lines ++ lines', by rw [h6, h3, List.append_assoc], fun hm => ?_, fun hm => ?_⟩
    · exact List.rel_append (h4 hm) (h7 (h2.2 hm))
    · rw [h5 hm, h8 (fun hm' => hm (h2.1 hm'))]
      rfl

theorem possibleAll_split (zx : Option Byte) (d : Dmn) (es es' : List Daemon.Event) :
    PossibleAll zx d (es ++ es') ↔ PossibleAll zx d es ∧ PossibleAll zx (Daemon.run zx d es) es' := by
  induction es generalizing d with
  | nil => simp [PossibleAll, Daemon.run]
  | cons a es ih => simp only [List.cons_append, PossibleAll, ih, run_cons, and_assoc]

theorem wrote_acts (h : Inv zx packet s made asked) (l : Limits) (as : List Act) : s.wrote <+: (s.acts zx l as).wrote := by
  induction as generalizing s made asked with
  | nil => exact List.prefix_refl _
  | cons a as ih =>
    refine List.IsPrefix.trans ?_ (ih (h.act l a))
    rcases a with _ | ⟨fd, text⟩ | fd | fd | ⟨fd, n⟩ | data | _ | stale
    · exact List.prefix_refl _
    · exact List.prefix_refl _
    · exact List.prefix_refl _
    · exact List.prefix_refl _
    · exact List.prefix_refl _
    · exact List.prefix_refl _
    · exact List.prefix_refl _
    · simp only [Sys.act]
      rcases hd : s.daemon zx l stale with _ | s'
      · exact List.prefix_refl _
      · rw [Option.getD_some]
        rcases daemon_cases h hd with ⟨x, todo⟩ | ⟨text, hw⟩ | ⟨text, f, fds, g, hw, hg⟩ | ⟨todo, hw, ht, hn, he⟩ |
          ⟨rest, f, w, hw, ht, hf⟩ | ⟨rest, data, reports, hw, ht, hr⟩ | ⟨rest, c, hw, ht, hc, hin⟩ |
          ⟨rest, c, x, hw, ht, hc, hin, hpe, hx⟩ <;> first | exact List.prefix_refl _ | exact List.prefix_append _ _

theorem free_length {sl : List (Option Nat)} (h : none ∈ sl) : (sl.filterMap id).length < sl.length := by
  induction sl with
  | nil => cases h
  | cons x sl ih =>
    have hl : (sl.filterMap id).length ≤ sl.length := List.length_filterMap_le id sl
    rcases x with _ | x
    · rw [List.filterMap_cons_none rfl, List.length_cons]
      omega
    · have := ih (by simpa using h)
      rw [List.filterMap_cons_some (f := id) (a := some x) (b := x) rfl, List.length_cons, List.length_cons]
      omega

/-- The lines for a connection the daemon does not close. -/
theorem lines_acts (h : Inv zx packet s made asked) (l : Limits) (as : List Act) {es : List Daemon.Event}
    (ht : (s.acts zx l as).trace = s.trace ++ es) {c : Conn} (hc : c ∈ s.conns) (hk : Kept c.fd es) :
    ∃ lines, linesTo c.fd ((s.acts zx l as).wrote ++ pending (s.acts zx l as)) = linesTo c.fd (s.wrote ++ pending s) ++ lines ∧
      (c.fd ∈ inTable s.d → List.Forall₂ ReportLine (reportsSeen es) lines) ∧ (c.fd ∉ inTable s.d → lines = []) := by
  have h' := inv_acts h l as
  have hp := h'.possible
  rw [ht, possibleAll_split, ← h.d] at hp
  have hd : (s.acts zx l as).d = Daemon.run zx s.d es := by
    rw [h'.d, ht, h.d]
    simp [Daemon.run]
  rw [h'.wrote, h.wrote, hd]
  refine table_run zx h.holds hp.2 ?_ hk
  rw [← h.holds.active, ← h.fds]
  exact List.mem_map_of_mem hc

end

/-- C77: what the daemon reads from a connection it does not close is what the client sent, without loss and in order,
but for what is still to be read. -/
theorem c77_input (zx : Option Byte) {packet : List Byte} (hp : packet.length = packetLen) (l : Limits) (as bs : List Act)
    {c : Conn} (hc : c ∈ ((Sys.start packet).acts zx l as).conns) :
    ∃ es, ((Sys.start packet).acts zx l (as ++ bs)).trace = ((Sys.start packet).acts zx l as).trace ++ es ∧
      (Kept c.fd es → ∃ c' ∈ ((Sys.start packet).acts zx l (as ++ bs)).conns, c'.fd = c.fd ∧
        textRead c.fd es ++ c'.input = c.input ++ textSent c.fd (decide (c.peer = .up)) bs) := by
  rw [acts_append]
  obtain ⟨es, h1, h2⟩ := stream_acts (inv_start zx hp l as) l bs
  exact ⟨es, h1, h2 c hc⟩

/-- C77, as far as it holds: a client of the daemon's table is written every report the daemon reads until it closes the
connection, as one line, once and in order, but for those of the report being handed out; and the reports read are
those the device made, but for those still to be read. Missing from the full claim: clients that are not in the table
(`c77_table_refuted`). -/
theorem c77_reports_partial (zx : Option Byte) {packet : List Byte} (hp : packet.length = packetLen) (l : Limits)
    (as bs : List Act) (hw : ((Sys.start packet).acts zx l as).writing = none) {fd : Nat}
    (hfd : fd ∈ inTable ((Sys.start packet).acts zx l as).d) :
    ∃ es, ((Sys.start packet).acts zx l (as ++ bs)).trace = ((Sys.start packet).acts zx l as).trace ++ es ∧
      reportsSeen es ++ ((Sys.start packet).acts zx l (as ++ bs)).reports =
        ((Sys.start packet).acts zx l as).reports ++ reportsMade bs ∧
      (Kept fd es → ∃ lines, List.Forall₂ ReportLine (reportsSeen es) lines ∧
        linesTo fd ((Sys.start packet).acts zx l (as ++ bs)).wrote <+:
          linesTo fd ((Sys.start packet).acts zx l as).wrote ++ lines ∧
        (((Sys.start packet).acts zx l (as ++ bs)).writing = none →
          linesTo fd ((Sys.start packet).acts zx l (as ++ bs)).wrote =
            linesTo fd ((Sys.start packet).acts zx l as).wrote ++ lines)) := by
  rw [acts_append]
  have hi := inv_start zx hp l as
  generalize (Sys.start packet).acts zx l as = s at hw hfd hi ⊢
  generalize reportsMade as = made at hi
  generalize connectsMade as = asked at hi
  have hi' := inv_acts hi l bs
  obtain ⟨es, h1, -⟩ := stream_acts hi l bs
  obtain ⟨c, hc, rfl⟩ := hi.table hfd
  refine ⟨es, h1, ?_, fun hk => ?_⟩
  · have h2 := hi'.made
    rw [← hi.made, h1, reportsSeen_append, List.append_assoc, List.append_assoc] at h2
    exact List.append_cancel_left h2
  · obtain ⟨lines, h2, h3, -⟩ := lines_acts hi l bs h1 hc hk
    have hpe : pending s = [] := by simp [pending, hw]
    rw [hpe, List.append_nil, linesTo_append] at h2
    refine ⟨lines, h3 hfd, ⟨_, h2⟩, fun hw' => ?_⟩
    have hpe' : pending (s.acts zx l bs) = [] := by simp [pending, hw']
    rw [hpe'] at h2
    simpa [linesTo] using h2

/-- C77 does not hold of a client that is accepted when the table is full: whatever happens afterwards, and however many
other clients leave, it is never written anything. -/
theorem c77_table_refuted (zx : Option Byte) {packet : List Byte} (hp : packet.length = packetLen) (l : Limits)
    (as bs : List Act) (stale : List Char) {fd : Nat}
    (hfull : (inTable ((Sys.start packet).acts zx l as).d).length = 64)
    (hnew : ((Sys.start packet).acts zx l (as ++ [.daemon stale])).conns =
      { fd := fd } :: ((Sys.start packet).acts zx l as).conns) :
    ∃ es, ((Sys.start packet).acts zx l (as ++ [.daemon stale] ++ bs)).trace =
        ((Sys.start packet).acts zx l (as ++ [.daemon stale])).trace ++ es ∧
      (Kept fd es → linesTo fd ((Sys.start packet).acts zx l (as ++ [.daemon stale] ++ bs)).wrote =
        linesTo fd ((Sys.start packet).acts zx l (as ++ [.daemon stale])).wrote) := by
  have hi := inv_start zx hp l as
  have hi1 := inv_start zx hp l (as ++ [.daemon stale])
  rw [acts_append zx l (Sys.start packet) (as ++ [Act.daemon stale]) bs]
  have hstep : (Sys.start packet).acts zx l (as ++ [.daemon stale]) =
      (((Sys.start packet).acts zx l as).daemon zx l stale).getD ((Sys.start packet).acts zx l as) := by
    rw [acts_append]
    rfl
  generalize (Sys.start packet).acts zx l (as ++ [.daemon stale]) = s1 at hi1 hstep hnew ⊢
  generalize (Sys.start packet).acts zx l as = s at hfull hi hnew hstep
  have hcl : s1.conns ≠ s.conns ∧ s1.conns.length ≠ s.conns.length := by
    rw [hnew]
    refine ⟨fun he => ?_, by simp⟩
    have := congrArg List.length he
    simp at this
  have key : fd ∉ inTable s1.d ∧ s1.writing = none := by
    rcases hd : s.daemon zx l stale with _ | s'
    · rw [hd] at hstep
      exact absurd (by rw [hstep]; rfl) hcl.1
    · rw [hd, Option.getD_some] at hstep
      subst hstep
      rcases daemon_cases hi hd with ⟨x, todo⟩ | ⟨text, hw⟩ | ⟨text, f, fds, g, hw, hg⟩ | ⟨todo, hw, ht, hn, he⟩ |
        ⟨rest, f, w, hw, ht, hf⟩ | ⟨rest, data, reports, hw, ht, hr⟩ | ⟨rest, c, hw, ht, hc, hin⟩ |
        ⟨rest, c, x, hw, ht, hc, hin, hpe, hx⟩
      · exact absurd rfl hcl.1
      · exact absurd rfl hcl.1
      · exact absurd (by simp) hcl.2
      · exact absurd rfl hcl.1
      · simp only [List.cons.injEq, Conn.mk.injEq, and_true] at hnew
        subst hnew
        refine ⟨?_, hw⟩
        have hno : none ∉ s.d.slots := by
          intro hn
          have h1 := hi.holds.slots
          have h3 := free_length hn
          unfold inTable at hfull
          unfold maxClients at h1
          omega
        simp only [Daemon.step, inTable, fillSlot_full _ hno]
        intro hm
        have := hi.holds.sub _ hm
        rw [← hi.holds.active, ← hi.fds] at this
        obtain ⟨c, hc, hcf⟩ := List.mem_map.1 this
        exact hf c hc hcf
      · exact absurd rfl hcl.1
      · exact absurd (by simp) hcl.2
      · have := List.length_filter_le (fun y : Conn => decide (y.fd ≠ c.fd)) s.conns
        have := congrArg List.length hnew
        simp only [List.length_cons] at this
        omega
  obtain ⟨es, h1, -⟩ := stream_acts hi1 l bs
  refine ⟨es, h1, fun hk => ?_⟩
  have hc : ({ fd := fd } : Conn) ∈ s1.conns := by
    rw [hnew]
    exact List.mem_cons_self
  obtain ⟨lines, h2, -, h3⟩ := lines_acts hi1 l bs h1 hc hk
  have hpe : pending s1 = [] := by simp [pending, key.2]
  rw [hpe, h3 key.1, List.append_nil, List.append_nil, linesTo_append] at h2
  obtain ⟨more, hm⟩ := wrote_acts hi1 l bs
  rw [← hm, linesTo_append, List.append_assoc, List.append_right_eq_self, List.append_eq_nil_iff] at h2
  rw [← hm, linesTo_append, h2.1, List.append_nil]

/-! ## Examples -/

example := c77_input none (packet := exPacket) rfl exLimits exTwo
  [.send 5 "01".toList, .daemon [], .send 5 "02\n".toList, .daemon [], .daemon [], .send 5 "03".toList] (c := { fd := 5 })
  (by decide +kernel)

example : ((Sys.start exPacket).acts none exLimits (exTwo ++
    [.send 5 "01".toList, .daemon [], .send 5 "02\n".toList, .daemon [], .daemon [], .send 5 "03".toList])).trace =
    [.accept 5, .accept 6, .input 5 (some "0102\n".toList) []] := by decide +kernel

example := c77_reports_partial none (packet := exPacket) rfl exLimits exTwo
  [.report [7], .report [8], .daemon [], .daemon [], .daemon [], .daemon [], .daemon []] (by decide +kernel) (fd := 6)
  (by decide +kernel)

example : linesTo 6 ((Sys.start exPacket).acts none exLimits (exTwo ++
    [.report [7], .report [8], .daemon [], .daemon [], .daemon [], .daemon [], .daemon []])).wrote = ["07\n".toList] := by
  decide +kernel

/-- As many connections as the table holds. -/
def exFull : List Act := (List.replicate 64 [Act.connect, .daemon [], .daemon []]).flatten ++ [.connect, .daemon []]

/-- Descriptors for more connections than the table holds. -/
def exMany : Limits := { descriptors := 128, buffer := 1000 }

theorem exFull_facts : (inTable ((Sys.start exPacket).acts none exMany exFull).d).length = 64 ∧
    ((Sys.start exPacket).acts none exMany (exFull ++ [.daemon []])).conns =
      { fd := 69 } :: ((Sys.start exPacket).acts none exMany exFull).conns ∧
    linesTo 68 ((Sys.start exPacket).acts none exMany (exFull ++ [Act.daemon []] ++
      ([.close 5, .daemon [], .daemon [], .report [7]] ++ List.replicate 66 (.daemon [])))).wrote = ["07\n".toList] := by
  decide +kernel

example := c77_table_refuted none (packet := exPacket) rfl exMany exFull
  [.close 5, .daemon [], .daemon [], .report [7], .daemon [], .daemon []] [] (fd := 69) exFull_facts.1 exFull_facts.2.1

end Knx
