import Verif.Spec.DaemonSystem
import Verif.Props.Daemon

/-! # The daemon as a process: C74, C75 -/

namespace Knx
open Spec Daemon Daemon.Sys

theorem possibleAll_snoc (zx : Option Byte) (d : Dmn) (es : List Daemon.Event) (e : Daemon.Event) :
    PossibleAll zx d (es ++ [e]) ↔ PossibleAll zx d es ∧ Possible (Daemon.run zx d es) e := by
  induction es generalizing d with
  | nil => simp [PossibleAll, Daemon.run]
  | cons a es ih =>
    simp only [List.cons_append, PossibleAll, ih, run_cons, and_assoc]

theorem run_snoc (zx : Option Byte) (d : Dmn) (es : List Daemon.Event) (e : Daemon.Event) :
    Daemon.run zx d (es ++ [e]) = Daemon.step zx (Daemon.run zx d es) e := by
  simp [Daemon.run]

theorem reportsSeen_append (es es' : List Daemon.Event) : reportsSeen (es ++ es') = reportsSeen es ++ reportsSeen es' := by
  induction es with
  | nil => rfl
  | cons e es ih => rcases e with fd | r | ⟨fd, x, st⟩ <;> simp [reportsSeen, ih]

theorem connectsSeen_append (es es' : List Daemon.Event) : connectsSeen (es ++ es') = connectsSeen es + connectsSeen es' := by
  induction es with
  | nil => simp [connectsSeen]
  | cons e es ih => rcases e with fd | r | ⟨fd, x, st⟩ <;> simp [connectsSeen, ih] <;> omega

/-- The writes to clients that are still to be done. -/
def pending (s : Sys) : List (Nat × List Char) :=
  match s.writing with
  | none => []
  | some (text, fds) => fds.map fun fd => (fd, text)

/-- What holds in every state of the system, `made` and `asked` being the reports and connections so far. -/
structure Inv (zx : Option Byte) (packet : List Byte) (s : Sys) (made : List (List Byte)) (asked : Nat) : Prop where
  possible : PossibleAll zx (Daemon.init packet) s.trace
  d : s.d = Daemon.run zx (Daemon.init packet) s.trace
  holds : Holds s.d (clients s.trace)
  fds : s.conns.map Conn.fd = s.d.active
  high : ∀ c ∈ s.conns, deviceFd < c.fd ∧ (fdSetSize ≤ c.fd → s.wild = true) ∧ (c.peer ≠ .reset → c.error = false)
  reports : ∀ r ∈ s.reports, r.length ≤ packetLen
  made : reportsSeen s.trace ++ s.reports = made
  asked : connectsSeen s.trace + s.backlog = asked
  todo : s.todo.Pairwise (· < ·)
  todoSock : sockFd ∈ s.todo → 0 < s.backlog
  todoDevice : deviceFd ∈ s.todo → s.reports ≠ [] ∨ s.unplugged = true
  todoClient : ∀ i ∈ s.todo, i ≠ sockFd → i ≠ deviceFd → ∃ c ∈ s.conns, c.fd = i ∧ (c.input ≠ [] ∨ c.peer ≠ .up)
  wrote : s.wrote ++ pending s = s.d.sent
  writing : ∀ text fds, s.writing = some (text, fds) → fds.Nodup ∧ ∀ fd ∈ fds, ∃ c ∈ s.conns, c.fd = fd

namespace Inv

variable {zx : Option Byte} {packet : List Byte} {s : Sys} {made : List (List Byte)} {asked : Nat}

theorem start (hp : packet.length = packetLen) : Inv zx packet (Sys.start packet) [] 0 where
  possible := trivial
  d := rfl
  holds := holds_init hp
  fds := rfl
  high := nofun
  reports := nofun
  made := rfl
  asked := rfl
  todo := .nil
  todoSock := nofun
  todoDevice := nofun
  todoClient := nofun
  wrote := rfl
  writing := nofun

/-- A change of connections that keeps descriptors and readiness. -/
theorem update (h : Inv zx packet s made asked) (fd : Nat) {f : Conn → Conn} (hfd : ∀ c, (f c).fd = c.fd)
    (hr : ∀ c, fd ∈ s.todo → c.fd = fd → (c.input ≠ [] ∨ c.peer ≠ .up) → (f c).input ≠ [] ∨ (f c).peer ≠ .up)
    (he : ∀ c, (c.peer ≠ .reset → c.error = false) → (f c).peer ≠ .reset → (f c).error = false) :
    Inv zx packet (s.update fd f) made asked := by
  have hfd' : ∀ c : Conn, (if c.fd = fd then f c else c).fd = c.fd := fun c => by split_ifs <;> simp [hfd]
  obtain ⟨h1, h2, h3, h4, h5, h6, h7, h8, h9, h10, h11, h12, h13, h14⟩ := h
  refine ⟨h1, h2, h3, ?_, ?_, h6, h7, h8, h9, h10, h11, ?_, h13, ?_⟩
  · refine Eq.trans ?_ h4
    simp only [Sys.update, List.map_map]
    exact List.map_congr_left fun c _ => hfd' c
  · intro c hc
    obtain ⟨a, ha, rfl⟩ := List.mem_map.1 hc
    rw [hfd']
    refine ⟨(h5 a ha).1, (h5 a ha).2.1, ?_⟩
    split_ifs
    · exact he a (h5 a ha).2.2
    · exact (h5 a ha).2.2
  · intro i hi hs hd
    obtain ⟨c, hc, hci, hcr⟩ := h12 i hi hs hd
    refine ⟨_, List.mem_map.2 ⟨c, hc, rfl⟩, (hfd' c).trans hci, ?_⟩
    by_cases hcf : c.fd = fd
    · rw [if_pos hcf]
      exact hr c (hcf ▸ hci ▸ hi) hcf hcr
    · rw [if_neg hcf]
      exact hcr
  · intro text fds hw
    refine ⟨(h14 text fds hw).1, fun g hg => ?_⟩
    obtain ⟨c, hc, hcf⟩ := (h14 text fds hw).2 g hg
    exact ⟨_, List.mem_map.2 ⟨c, hc, rfl⟩, (hfd' c).trans hcf⟩

theorem nodup (h : Inv zx packet s made asked) : (s.conns.map Conn.fd).Nodup := by
  rw [h.fds, h.holds.active]
  exact h.holds.nodup

theorem unique (h : Inv zx packet s made asked) {c c' : Conn} (hc : c ∈ s.conns) (hc' : c' ∈ s.conns)
    (he : c.fd = c'.fd) : c = c' := List.inj_on_of_nodup_map h.nodup hc hc' he

theorem conn_eq (h : Inv zx packet s made asked) {c : Conn} (hc : c ∈ s.conns) : s.conn c.fd = some c := by
  unfold Sys.conn
  rcases hf : s.conns.find? (fun x => decide (x.fd = c.fd)) with _ | x
  · have := List.find?_eq_none.1 hf c hc
    simp at this
  · have h1 := List.find?_some hf
    rw [hf, h.unique (List.mem_of_find?_eq_some hf) hc (by simpa using h1)]

theorem table (h : Inv zx packet s made asked) {fd : Nat} (hfd : fd ∈ inTable s.d) : ∃ c ∈ s.conns, c.fd = fd := by
  have := h.holds.sub fd hfd
  rw [← h.holds.active, ← h.fds] at this
  exact List.mem_map.1 this

theorem table_pos (h : Inv zx packet s made asked) :
    ((s.d.slots.filterMap id).filter fun fd => decide (0 < fd)) = inTable s.d := by
  unfold inTable
  rw [List.filter_eq_self]
  exact fun fd hm => by simpa using h.holds.pos fd (h.holds.sub fd hm)

/-- The loop goes on to the next descriptor. -/
theorem pop (h : Inv zx packet s made asked) {i : Nat} {rest : List Nat} (ht : s.todo = i :: rest) :
    Inv zx packet { s with todo := rest } made asked ∧ i ∉ rest := by
  obtain ⟨h1, h2, h3, h4, h5, h6, h7, h8, h9, h10, h11, h12, h13, h14⟩ := h
  rw [ht] at h9 h10 h11 h12
  rw [List.pairwise_cons] at h9
  exact ⟨⟨h1, h2, h3, h4, h5, h6, h7, h8, h9.2, fun hm => h10 (List.mem_cons_of_mem _ hm),
    fun hm => h11 (List.mem_cons_of_mem _ hm), fun j hj => h12 j (List.mem_cons_of_mem _ hj), h13, h14⟩,
    fun hm => Nat.lt_irrefl _ (h9.1 i hm)⟩

/-- An event of the loop is possible and keeps the daemon's table right. -/
theorem event (h : Inv zx packet s made asked) {e : Daemon.Event} (he : Possible s.d e) :
    PossibleAll zx (Daemon.init packet) (s.trace ++ [e]) ∧
    Daemon.step zx s.d e = Daemon.run zx (Daemon.init packet) (s.trace ++ [e]) ∧
    Holds (Daemon.step zx s.d e) (clients (s.trace ++ [e])) := by
  refine ⟨(possibleAll_snoc ..).2 ⟨h.possible, h.d ▸ he⟩, by rw [run_snoc, ← h.d], ?_⟩
  unfold clients
  rw [clientsFrom_append]
  exact (holds_step zx h.holds he).1

theorem freeFd_some {l : Limits} {fd : Nat} (hf : s.freeFd l = some fd) :
    deviceFd < fd ∧ (∀ c ∈ s.conns, c.fd ≠ fd) ∧ fd < l.descriptors := by
  unfold freeFd at hf
  have h1 := List.find?_some hf
  have h2 := List.mem_of_find?_eq_some hf
  simp only [decide_eq_true_eq] at h1
  exact ⟨h1.1, h1.2, List.mem_range.1 h2⟩

theorem freeFd_none {l : Limits} (hf : s.freeFd l = none) :
    ∀ fd, deviceFd < fd → fd < l.descriptors → ∃ c ∈ s.conns, c.fd = fd := by
  intro fd h1 h2
  unfold freeFd at hf
  have := List.find?_eq_none.1 hf fd (List.mem_range.2 h2)
  simp only [decide_eq_true_eq, not_and, not_forall, not_not, exists_prop] at this
  exact this h1

theorem stop (h : Inv zx packet s made asked) (x : Option Stop) : Inv zx packet { s with stopped := x } made asked := by
  obtain ⟨h1, h2, h3, h4, h5, h6, h7, h8, h9, h10, h11, h12, h13, h14⟩ := h
  exact ⟨h1, h2, h3, h4, h5, h6, h7, h8, h9, h10, h11, h12, h13, h14⟩

theorem accept (h : Inv zx packet s made asked) (l : Limits) (hs : sockFd ∉ s.todo) (hb : 0 < s.backlog)
    (hw : s.writing = none) : Inv zx packet (s.acceptOne zx l) made asked := by
  unfold acceptOne
  rcases hf : s.freeFd l with _ | fd
  · exact h.stop _
  · obtain ⟨hlow, hnew, -⟩ := freeFd_some hf
    have he : Possible s.d (.accept fd) := by
      refine ⟨by unfold deviceFd at hlow; omega, fun ha => ?_⟩
      rw [← h.fds] at ha
      obtain ⟨c, hc, hcf⟩ := List.mem_map.1 ha
      exact hnew c hc hcf
    obtain ⟨e1, e2, e3⟩ := h.event he
    obtain ⟨h1, h2, h3, h4, h5, h6, h7, h8, h9, h10, h11, h12, h13, h14⟩ := h
    refine ⟨e1, e2, e3, ?_, ?_, h6, ?_, ?_, h9, fun hm => absurd hm hs, h11, ?_, ?_, ?_⟩
    · simp [Daemon.step, h4]
    · intro c hc
      rcases List.mem_cons.1 hc with rfl | hc
      · exact ⟨hlow, fun hf => by simpa using .inr hf, fun _ => rfl⟩
      · exact ⟨(h5 c hc).1, fun hf => by simp [(h5 c hc).2.1 hf], (h5 c hc).2.2⟩
    · simpa [reportsSeen_append, reportsSeen] using h7
    · simp only [connectsSeen_append, connectsSeen]
      omega
    · intro i hi h3 h4
      obtain ⟨c, hc, hcr⟩ := h12 i hi h3 h4
      exact ⟨c, List.mem_cons_of_mem _ hc, hcr⟩
    · exact h13
    · intro text fds hw'
      exact absurd (hw.symm.trans hw') nofun

theorem report (h : Inv zx packet s made asked) (hd : deviceFd ∉ s.todo) (hw : s.writing = none) :
    Inv zx packet (s.reportOne zx) made asked := by
  unfold reportOne
  split_ifs with hu
  · exact h.stop _
  rcases hr : s.reports with _ | ⟨data, rest⟩
  · exact h
  · have he : Possible s.d (.report data) := h.reports data (by simp [hr])
    obtain ⟨e1, e2, e3⟩ := h.event he
    have htp := h.table_pos
    have htab := fun fd => h.table (fd := fd)
    have hnd := h.holds.table
    obtain ⟨h1, h2, h3, h4, h5, h6, h7, h8, h9, h10, h11, h12, h13, h14⟩ := h
    refine ⟨e1, e2, e3, h4, h5, ?_, ?_, ?_, h9, h10, fun hm => absurd hm hd, h12, ?_, ?_⟩
    · exact fun r hm => h6 r (by simp [hr, hm])
    · rw [hr] at h7
      simpa [reportsSeen_append, reportsSeen] using h7
    · simpa [connectsSeen_append, connectsSeen] using h8
    · simp only [pending, hw, List.append_nil] at h13
      simp only [pending, Daemon.step]
      rw [h13]
    · intro text fds hw'
      simp only [Option.some.injEq, Prod.mk.injEq] at hw'
      obtain ⟨-, rfl⟩ := hw'
      rw [htp]
      exact ⟨hnd, htab⟩

theorem input (h : Inv zx packet s made asked) (stale : List Char) {fd : Nat} (hn : fd ∉ s.todo) (hw : s.writing = none) :
    Inv zx packet (s.inputOne zx stale fd) made asked := by
  unfold inputOne
  rcases hc : s.conn fd with _ | c
  · exact h
  · have hcm : c ∈ s.conns := List.mem_of_find?_eq_some hc
    have hcf : c.fd = fd := by simpa using List.find?_some hc
    have he : Possible s.d (.input fd (readResult c) stale) := by
      refine ⟨?_, fun t ht => ?_⟩
      · rw [← h.fds, ← hcf]
        exact List.mem_map_of_mem hcm
      · unfold readResult at ht
        split_ifs at ht
        · simp only [Option.some.injEq] at ht
          rw [← ht, List.length_take]
          omega
        · simp only [Option.some.injEq] at ht
          simp [← ht]
    obtain ⟨e1, e2, e3⟩ := h.event he
    have hnd := h.nodup
    simp only
    split_ifs with hi hu
    · exact h.stop _
    · have hu := h.update fd (f := fun c => { c with input := c.input.drop (packetLen * 2 + 1) }) (fun _ => rfl)
        (fun _ hm => absurd hm hn) (fun _ hc => hc)
      have hx : readResult c ≠ none ∧ readResult c ≠ some [] := by
        unfold readResult
        rw [if_pos hi]
        refine ⟨nofun, fun hx => ?_⟩
        have := congrArg List.length (Option.some.inj hx)
        have h0 := List.length_pos_iff.2 hi
        simp only [List.length_take, List.length_nil] at this
        omega
      have hs : (Daemon.step zx s.d (.input fd (readResult c) stale)).active = s.d.active ∧
          (Daemon.step zx s.d (.input fd (readResult c) stale)).sent = s.d.sent := by
        rw [step_input, if_pos hx]
        exact ⟨rfl, rfl⟩
      obtain ⟨h1, h2, h3, h4, h5, h6, h7, h8, h9, h10, h11, h12, h13, h14⟩ := hu
      refine ⟨e1, e2, e3, h4.trans hs.1.symm, h5, h6, ?_, ?_, h9, h10, h11, h12, h13.trans hs.2.symm, h14⟩
      · simpa [reportsSeen_append, reportsSeen, Sys.update] using h7
      · simpa [connectsSeen_append, connectsSeen, Sys.update] using h8
    · have hx : ¬ (readResult c ≠ none ∧ readResult c ≠ some []) := by
        unfold readResult
        rw [if_neg hi]
        split_ifs <;> simp
      have hs : (Daemon.step zx s.d (.input fd (readResult c) stale)).active = s.d.active.erase fd ∧
          (Daemon.step zx s.d (.input fd (readResult c) stale)).sent = s.d.sent := by
        rw [step_input, if_neg hx]
        exact ⟨rfl, rfl⟩
      obtain ⟨h1, h2, h3, h4, h5, h6, h7, h8, h9, h10, h11, h12, h13, h14⟩ := h
      refine ⟨e1, e2, e3, ?_, ?_, h6, ?_, ?_, h9, h10, h11, ?_, h13.trans hs.2.symm, ?_⟩
      · refine Eq.trans ?_ hs.1.symm
        rw [← h4, hnd.erase_eq_filter, List.filter_map]
        congr 1
        exact List.filter_congr fun c _ => by simp [bne, Bool.beq_eq_decide_eq]
      · exact fun c hc => h5 c (List.mem_filter.1 hc).1
      · simpa [reportsSeen_append, reportsSeen] using h7
      · simpa [connectsSeen_append, connectsSeen] using h8
      · intro i hi h3 h4
        obtain ⟨c, hc, hci, hcr⟩ := h12 i hi h3 h4
        refine ⟨c, List.mem_filter.2 ⟨hc, ?_⟩, hci, hcr⟩
        simp only [decide_eq_true_eq, hci]
        exact fun hif => hn (hif ▸ hi)
      · intro text fds hw'
        exact absurd (hw.symm.trans hw') nofun

theorem write (h : Inv zx packet s made asked) {l : Limits} {text : List Char} {fd : Nat} {fds : List Nat}
    (hw : s.writing = some (text, fd :: fds)) {s' : Sys} (hs : s.writeOne l text fd fds = some s') :
    Inv zx packet s' made asked := by
  have base : Inv zx packet { s with writing := some (text, fds), wrote := s.wrote ++ [(fd, text)] } made asked := by
    obtain ⟨h1, h2, h3, h4, h5, h6, h7, h8, h9, h10, h11, h12, h13, h14⟩ := h
    refine ⟨h1, h2, h3, h4, h5, h6, h7, h8, h9, h10, h11, h12, ?_, ?_⟩
    · simp only [pending, hw] at h13
      simpa [pending] using h13
    · intro t f hw'
      simp only [Option.some.injEq, Prod.mk.injEq] at hw'
      obtain ⟨rfl, rfl⟩ := hw'
      have := h14 _ _ hw
      exact ⟨(List.nodup_cons.1 this.1).2, fun g hg => this.2 g (List.mem_cons_of_mem _ hg)⟩
  unfold writeOne at hs
  simp only at hs
  split at hs
  · cases hs
    exact base
  · split at hs
    · split_ifs at hs
      cases hs
      exact base.update _ (fun _ => rfl) (fun _ _ _ hr => hr) (fun _ hc => hc)
    · split_ifs at hs
      cases hs
      exact base.update _ (fun _ => rfl) (fun _ _ _ hr => hr) (fun _ hc => hc)
    · split_ifs at hs
      · cases hs
        exact base.update _ (fun _ => rfl) (fun _ _ _ hr => hr) (fun _ _ _ => rfl)
      · cases hs
        exact h.stop _

theorem select (h : Inv zx packet s made asked) (n : Nat) :
    Inv zx packet { s with todo := (List.range n).filter s.ready } made asked := by
  have hp : ((List.range n).filter s.ready).Pairwise (· < ·) := List.pairwise_lt_range.filter _
  obtain ⟨h1, h2, h3, h4, h5, h6, h7, h8, h9, h10, h11, h12, h13, h14⟩ := h
  refine ⟨h1, h2, h3, h4, h5, h6, h7, h8, hp, ?_, ?_, ?_, h13, h14⟩
  · intro hm
    simpa [ready] using (List.mem_filter.1 hm).2
  · intro hm
    simpa [ready, deviceFd, sockFd] using (List.mem_filter.1 hm).2
  · intro i hm hs hd
    have := (List.mem_filter.1 hm).2
    simp only [ready, if_neg hs, if_neg hd, Bool.and_eq_true, List.any_eq_true, decide_eq_true_eq, Conn.ready] at this
    exact this.2

theorem daemon (h : Inv zx packet s made asked) (l : Limits) (stale : List Char) {s' : Sys}
    (hs : s.daemon zx l stale = some s') : Inv zx packet s' made asked := by
  unfold Sys.daemon at hs
  split_ifs at hs
  split at hs
  · next hw =>
    cases hs
    obtain ⟨h1, h2, h3, h4, h5, h6, h7, h8, h9, h10, h11, h12, h13, h14⟩ := h
    refine ⟨h1, h2, h3, h4, h5, h6, h7, h8, h9, h10, h11, h12, ?_, nofun⟩
    simp only [pending, hw] at h13
    simpa [pending] using h13
  · next hw => exact h.write hw hs
  · next hw =>
    split at hs
    · split at hs
      · cases hs
      · cases hs
        exact h.select _
    · next i rest ht =>
      obtain ⟨hp, hi⟩ := h.pop ht
      split_ifs at hs with h3 h4
      · cases hs
        subst h3
        exact hp.accept l hi (h.todoSock (by simp [ht])) hw
      · cases hs
        subst h4
        exact hp.report hi hw
      · cases hs
        exact hp.input stale hi hw

theorem act (h : Inv zx packet s made asked) (l : Limits) (a : Act) :
    Inv zx packet (s.act zx l a) (made ++ reportsMade [a]) (asked + connectsMade [a]) := by
  rcases a with _ | ⟨fd, text⟩ | fd | fd | ⟨fd, n⟩ | data | _ | stale
  · simp only [reportsMade, connectsMade, List.append_nil]
    obtain ⟨h1, h2, h3, h4, h5, h6, h7, h8, h9, h10, h11, h12, h13, h14⟩ := h
    refine ⟨h1, h2, h3, h4, h5, h6, h7, ?_, h9, fun _ => Nat.succ_pos _, h11, h12, h13, h14⟩
    simp only [Sys.act]
    omega
  · simp only [reportsMade, connectsMade, List.append_nil, Nat.add_zero]
    refine h.update _ (fun c => by split_ifs <;> rfl) (fun c _ _ hr => ?_) (fun c hc => by split_ifs <;> exact hc)
    split_ifs
    · rcases hr with hr | hr
      · exact .inl (by simp [hr])
      · exact .inr hr
    · exact hr
  · simp only [reportsMade, connectsMade, List.append_nil, Nat.add_zero]
    refine h.update _ (fun c => by split_ifs <;> rfl) (fun c _ _ hr => ?_) (fun c hc => ?_)
    swap
    · split_ifs with hu
      · exact fun _ => hc (by simp [hu])
      · exact hc
    split_ifs
    · exact .inr nofun
    · exact hr
  · simp only [reportsMade, connectsMade, List.append_nil, Nat.add_zero]
    refine h.update _ (fun c => ?_) (fun c _ _ hr => ?_) (fun c hc => ?_)
    · unfold Conn.onReset
      split <;> (try split_ifs) <;> rfl
    · unfold Conn.onReset
      split <;> (try split_ifs)
      · exact .inr nofun
      · exact .inr nofun
      · exact hr
      · exact hr
    · unfold Conn.onReset
      split <;> (try split_ifs)
      · exact fun hn => absurd rfl hn
      · exact fun hn => absurd rfl hn
      · exact hc
      · exact hc
  · simp only [reportsMade, connectsMade, List.append_nil, Nat.add_zero]
    exact h.update _ (fun _ => rfl) (fun _ _ _ hr => hr) (fun _ hc => hc)
  · simp only [reportsMade, connectsMade, Nat.add_zero]
    obtain ⟨h1, h2, h3, h4, h5, h6, h7, h8, h9, h10, h11, h12, h13, h14⟩ := h
    refine ⟨h1, h2, h3, h4, h5, ?_, ?_, h8, h9, h10, ?_, h12, h13, h14⟩
    · intro r hr
      rcases List.mem_append.1 hr with hr | hr
      · exact h6 r hr
      · rw [List.mem_singleton.1 hr, List.length_take]
        omega
    · rw [← h7]
      simp [Sys.act, packetLen]
    · exact fun _ => .inl (by simp [Sys.act])
  · simp only [reportsMade, connectsMade, List.append_nil, Nat.add_zero]
    obtain ⟨h1, h2, h3, h4, h5, h6, h7, h8, h9, h10, h11, h12, h13, h14⟩ := h
    exact ⟨h1, h2, h3, h4, h5, h6, h7, h8, h9, h10, fun _ => .inr rfl, h12, h13, h14⟩
  · simp only [reportsMade, connectsMade, List.append_nil, Nat.add_zero, Sys.act]
    rcases hd : s.daemon zx l stale with _ | s'
    · exact h
    · exact h.daemon l stale hd

end Inv

theorem reportsMade_cons (a : Act) (as : List Act) : reportsMade (a :: as) = reportsMade [a] ++ reportsMade as := by
  cases a <;> rfl

theorem connectsMade_cons (a : Act) (as : List Act) : connectsMade (a :: as) = connectsMade [a] + connectsMade as := by
  cases a <;> simp [connectsMade, Nat.add_comm]

theorem inv_acts {zx : Option Byte} {packet : List Byte} {s : Sys} {made : List (List Byte)} {asked : Nat}
    (h : Inv zx packet s made asked) (l : Limits) (as : List Act) :
    Inv zx packet (s.acts zx l as) (made ++ reportsMade as) (asked + connectsMade as) := by
  induction as generalizing s made asked with
  | nil => simpa [reportsMade, connectsMade, acts] using h
  | cons a as ih =>
    rw [reportsMade_cons, connectsMade_cons, ← List.append_assoc, ← Nat.add_assoc]
    exact ih (h.act l a)

theorem inv_start (zx : Option Byte) {packet : List Byte} (hp : packet.length = packetLen) (l : Limits) (as : List Act) :
    Inv zx packet ((Sys.start packet).acts zx l as) (reportsMade as) (connectsMade as) := by
  simpa using inv_acts (Inv.start hp) l as

/-! ## C75 -/

/-- C75: whatever the clients, the device and the kernel do, the events of the daemon's loop are a possible history: what
the theorems about histories assume of the kernel holds of every run of the process, with every memory behind the texts.
The open connections are those of the history; every report of the device and every connection is dealt with once
and in order, or is still to be dealt with; and what was written to clients is what the history sends, as far as the
process has come. -/
theorem c75_history (zx : Option Byte) {packet : List Byte} (hp : packet.length = packetLen) (l : Limits) (as : List Act) :
    ∃ es, PossibleAll zx (Daemon.init packet) es ∧
      ((Sys.start packet).acts zx l as).d = Daemon.run zx (Daemon.init packet) es ∧
      ((Sys.start packet).acts zx l as).conns.map Conn.fd = clients es ∧
      reportsSeen es ++ ((Sys.start packet).acts zx l as).reports = reportsMade as ∧
      connectsSeen es + ((Sys.start packet).acts zx l as).backlog = connectsMade as ∧
      ((Sys.start packet).acts zx l as).wrote <+: (Daemon.run zx (Daemon.init packet) es).sent ∧
      (((Sys.start packet).acts zx l as).writing = none →
        ((Sys.start packet).acts zx l as).wrote = (Daemon.run zx (Daemon.init packet) es).sent) := by
  have h := inv_start zx hp l as
  generalize (Sys.start packet).acts zx l as = s at h ⊢
  refine ⟨s.trace, h.possible, h.d, h.fds.trans h.holds.active, h.made, h.asked, ?_, fun hw => ?_⟩
  · rw [← h.d, ← h.wrote]
    exact List.prefix_append _ _
  · rw [← h.d, ← h.wrote]
    simp [pending, hw]

/-! ## C74 -/

section
variable {zx : Option Byte} {l : Limits} {stale : List Char} {s : Sys}

theorem daemon_end {text : List Char} (hs : s.stopped = none) (hw : s.writing = some (text, [])) :
    s.daemon zx l stale = some { s with writing := none } := by
  unfold Sys.daemon
  rw [if_neg (by simp [hs])]
  split <;> simp_all

theorem daemon_write {text : List Char} {fd : Nat} {fds : List Nat} (hs : s.stopped = none)
    (hw : s.writing = some (text, fd :: fds)) : s.daemon zx l stale = s.writeOne l text fd fds := by
  unfold Sys.daemon
  rw [if_neg (by simp [hs])]
  split <;> simp_all

theorem daemon_select (hs : s.stopped = none) (hw : s.writing = none) (ht : s.todo = []) :
    s.daemon zx l stale = if (List.range fdSetSize).filter s.ready = [] then none else
      some { s with todo := (List.range fdSetSize).filter s.ready } := by
  unfold Sys.daemon
  rw [if_neg (by simp [hs])]
  split
  · simp_all
  · simp_all
  · split
    · split
      · next hr => rw [if_pos hr]
      · next hr => rw [if_neg hr]
    · simp_all

theorem daemon_todo {i : Nat} {rest : List Nat} (hs : s.stopped = none) (hw : s.writing = none) (ht : s.todo = i :: rest) :
    s.daemon zx l stale =
      if i = sockFd then some (Sys.acceptOne zx l { s with todo := rest })
      else if i = deviceFd then some (Sys.reportOne zx { s with todo := rest })
      else some (Sys.inputOne zx stale { s with todo := rest } i) := by
  unfold Sys.daemon
  rw [if_neg (by simp [hs])]
  split
  · simp_all
  · simp_all
  · split
    · simp_all
    · next ht' =>
      rw [ht] at ht'
      cases ht'
      rfl

theorem daemon_unplugged {s' : Sys} (h : s.daemon zx l stale = some s') : s'.unplugged = s.unplugged := by
  unfold Sys.daemon at h
  split_ifs at h
  split at h
  · cases h
    rfl
  · unfold writeOne at h
    simp only at h
    split at h
    · cases h
      rfl
    · split at h
      · split_ifs at h
        cases h
        rfl
      · split_ifs at h
        cases h
        rfl
      · split_ifs at h <;> cases h <;> rfl
  · split at h
    · split at h
      · cases h
      · cases h
        rfl
    · split_ifs at h
      · cases h
        unfold acceptOne
        split <;> rfl
      · cases h
        unfold reportOne
        split_ifs
        · rfl
        · split <;> rfl
      · cases h
        unfold inputOne
        split
        · rfl
        · simp only
          split_ifs <;> rfl

end

/-- Exactly what ends the process. -/
theorem stops_iff {zx : Option Byte} {packet : List Byte} {s : Sys} {made : List (List Byte)} {asked : Nat}
    (h : Inv zx packet s made asked) (l : Limits) (stale : List Char) (hs : s.stopped = none) :
    (∃ s', s.daemon zx l stale = some s' ∧ s'.stopped ≠ none) ↔ Fatal l s := by
  rcases hw : s.writing with _ | ⟨text, _ | ⟨fd, fds⟩⟩
  · rcases ht : s.todo with _ | ⟨i, rest⟩
    · rw [daemon_select hs hw ht]
      refine iff_of_false ?_ ?_
      · rintro ⟨s', h1, h2⟩
        split_ifs at h1
        cases h1
        exact h2 hs
      · rintro (⟨text, fd, fds, h1, -⟩ | ⟨-, ⟨rest, h1⟩, -⟩ | ⟨-, -, i, rest, h1, -⟩)
        · rw [hw] at h1
          cases h1
        · rw [ht] at h1
          cases h1
        · rw [ht] at h1
          cases h1
    · rw [daemon_todo hs hw ht]
      have hF : Fatal l s ↔ (i = 3 ∧ ∀ fd, 5 ≤ fd → fd < l.descriptors → ∃ c ∈ s.conns, c.fd = fd) ∨
          (s.unplugged = true ∧ (i = 4 ∨ ∃ c ∈ s.conns, c.fd = i ∧ c.input ≠ [])) := by
        constructor
        · rintro (⟨text, fd, fds, h1, -⟩ | ⟨-, ⟨r, h1⟩, h2⟩ | ⟨-, h1, j, r, h2, h3⟩)
          · rw [hw] at h1
            cases h1
          · rw [ht] at h1
            cases h1
            exact .inl ⟨rfl, h2⟩
          · rw [ht] at h2
            cases h2
            exact .inr ⟨h1, h3⟩
        · rintro (⟨rfl, h1⟩ | ⟨h1, h2⟩)
          · exact .inr (.inl ⟨hw, ⟨rest, ht⟩, h1⟩)
          · exact .inr (.inr ⟨hw, h1, i, rest, ht, h2⟩)
      rw [hF]
      by_cases h3 : i = sockFd
      · rw [if_pos h3]
        subst h3
        simp only [Option.some.injEq, exists_eq_left', acceptOne]
        rcases hf : freeFd l { s with todo := rest } with _ | fd
        · have := Inv.freeFd_none hf
          simp only [ne_eq, reduceCtorEq, not_false_eq_true, true_iff]
          exact .inl ⟨rfl, fun fd h5 hl => this fd h5 hl⟩
        · obtain ⟨f1, f2, f3⟩ := Inv.freeFd_some hf
          simp only [hs, ne_eq, not_true_eq_false, false_iff]
          rintro (⟨-, h1⟩ | ⟨-, h1 | ⟨c, hc, hc3, -⟩⟩)
          · obtain ⟨c, hc, hcf⟩ := h1 fd f1 f3
            exact f2 c hc hcf
          · exact absurd h1 (by decide)
          · have := (h.high c hc).1
            unfold deviceFd at this
            unfold sockFd at hc3
            omega
      · rw [if_neg h3]
        have h3' : ¬ i = 3 := h3
        by_cases h4 : i = deviceFd
        · rw [if_pos h4]
          subst h4
          simp only [Option.some.injEq, exists_eq_left', reportOne]
          by_cases hu : s.unplugged = true
          · rw [if_pos hu]
            simp only [ne_eq, reduceCtorEq, not_false_eq_true, true_iff]
            exact .inr ⟨hu, .inl rfl⟩
          · rw [if_neg hu]
            refine iff_of_false ?_ ?_
            · split <;> simp [hs]
            · rintro (⟨h1, -⟩ | ⟨h1, -⟩)
              · exact h3' h1
              · exact hu h1
        · rw [if_neg h4]
          simp only [Option.some.injEq, exists_eq_left', inputOne]
          obtain ⟨c, hc, hci, -⟩ := h.todoClient i (by simp [ht]) h3 h4
          have hcn : Sys.conn { s with todo := rest } i = some c := hci ▸ h.conn_eq hc
          rw [hcn]
          simp only
          split_ifs with hin hu
          · simp only [ne_eq, reduceCtorEq, not_false_eq_true, true_iff]
            exact .inr ⟨hu, .inr ⟨c, hc, hci, hin⟩⟩
          · refine iff_of_false (by simp [Sys.update, hs]) ?_
            rintro (⟨h1, -⟩ | ⟨h1, -⟩)
            · exact h3' h1
            · exact hu h1
          · refine iff_of_false (by simp [hs]) ?_
            rintro (⟨h1, -⟩ | ⟨-, h1 | ⟨c', hc', hci', hin'⟩⟩)
            · exact h3' h1
            · exact h4 h1
            · rw [h.unique hc' hc (hci'.trans hci.symm)] at hin'
              exact hin hin'
  · rw [daemon_end hs hw]
    refine iff_of_false (by simp [hs]) ?_
    rintro (⟨t, fd, fds, h1, -⟩ | ⟨h1, -⟩ | ⟨h1, -⟩) <;> rw [hw] at h1 <;> cases h1
  · rw [daemon_write hs hw]
    obtain ⟨c, hc, hcf⟩ := (h.writing _ _ hw).2 fd List.mem_cons_self
    have hF : Fatal l s ↔ c.peer = .reset ∧ c.error = false := by
      constructor
      · rintro (⟨t, f, fs, h1, c', hc', hcf', h2⟩ | ⟨h1, -⟩ | ⟨h1, -⟩)
        · rw [hw] at h1
          cases h1
          rwa [h.unique hc' hc (hcf'.trans hcf.symm)] at h2
        · rw [hw] at h1
          cases h1
        · rw [hw] at h1
          cases h1
      · rintro h1
        exact .inl ⟨text, fd, fds, hw, c, hc, hcf, h1⟩
    rw [hF]
    have hcn : s.conn fd = some c := hcf ▸ h.conn_eq hc
    unfold writeOne
    rw [hcn]
    simp only
    rcases hp : c.peer with _ | _ | _
    · refine iff_of_false ?_ nofun
      rintro ⟨s', h1, h2⟩
      simp only at h1
      split_ifs at h1
      cases h1
      exact h2 (by simpa [Sys.update] using hs)
    · refine iff_of_false ?_ nofun
      rintro ⟨s', h1, h2⟩
      simp only at h1
      split_ifs at h1
      cases h1
      exact h2 (by simpa [Sys.update] using hs)
    · simp only [true_and]
      by_cases hce : c.error = true
      · simp [hce, Sys.update, hs]
      · simp [hce]

/-- Exactly when the process does nothing. -/
theorem waits_iff {zx : Option Byte} {packet : List Byte} {s : Sys} {made : List (List Byte)} {asked : Nat}
    (h : Inv zx packet s made asked) (l : Limits) (stale : List Char) (hs : s.stopped = none) :
    s.daemon zx l stale = none ↔ Blocked l s ∨ Idle s := by
  rcases hw : s.writing with _ | ⟨text, _ | ⟨fd, fds⟩⟩
  · have hB : ¬ Blocked l s := by
      rintro ⟨t, fd, fds, h1, -⟩
      rw [hw] at h1
      cases h1
    simp only [hB, false_or]
    rcases ht : s.todo with _ | ⟨i, rest⟩
    · rw [daemon_select hs hw ht]
      rw [ite_eq_left_iff]
      simp only [reduceCtorEq, imp_false, not_not]
      rw [List.filter_eq_nil_iff]
      simp only [List.mem_range, Bool.not_eq_true]
      constructor
      · intro hr
        have r3 := hr sockFd (by decide)
        have r4 := hr deviceFd (by decide)
        simp only [ready, if_true, decide_eq_false_iff_not] at r3
        simp only [ready, if_neg (show ¬ deviceFd = sockFd by decide), if_true, Bool.or_eq_false_iff,
          decide_eq_false_iff_not, ne_eq, not_not] at r4
        refine ⟨hw, ht, by omega, r4.1, r4.2, fun c hc hlt => ?_⟩
        have rc := hr c.fd hlt
        have hhigh := (h.high c hc).1
        rw [ready, if_neg (by unfold sockFd; unfold deviceFd at hhigh; omega),
          if_neg (by unfold deviceFd at hhigh ⊢; omega)] at rc
        have hact : c.fd ∈ s.d.active := h.fds ▸ List.mem_map_of_mem hc
        simp only [hact, decide_true, Bool.true_and, List.any_eq_false, Bool.and_eq_true, decide_eq_true_eq, not_and,
          Conn.ready, not_or, ne_eq, not_not] at rc
        exact rc c hc rfl
      · rintro ⟨-, -, hb, hr, hu, hc⟩ i hi
        unfold ready
        split_ifs with h3 h4
        · simp [hb]
        · simp [hr, hu]
        · simp only [Bool.and_eq_false_iff, decide_eq_false_iff_not, List.any_eq_false, Bool.and_eq_true,
            decide_eq_true_eq, not_and, Conn.ready, not_or, ne_eq, not_not]
          refine .inr fun c hcm hci => ?_
          exact hc c hcm (hci ▸ hi)
    · rw [daemon_todo hs hw ht]
      refine iff_of_false ?_ ?_
      · split_ifs <;> nofun
      · rintro ⟨-, h1, -⟩
        rw [ht] at h1
        cases h1
  · rw [daemon_end hs hw]
    refine iff_of_false nofun ?_
    rintro (⟨t, fd, fds, h1, -⟩ | ⟨h1, -⟩) <;> rw [hw] at h1 <;> cases h1
  · rw [daemon_write hs hw]
    obtain ⟨c, hc, hcf⟩ := (h.writing _ _ hw).2 fd List.mem_cons_self
    have hF : Blocked l s ∨ Idle s ↔ c.peer ≠ .reset ∧ l.buffer < c.unread + text.length := by
      constructor
      · rintro (⟨t, f, fs, h1, c', hc', hcf', h2⟩ | ⟨h1, -⟩)
        · rw [hw] at h1
          cases h1
          rwa [h.unique hc' hc (hcf'.trans hcf.symm)] at h2
        · rw [hw] at h1
          cases h1
      · rintro h1
        exact .inl ⟨text, fd, fds, hw, c, hc, hcf, h1⟩
    rw [hF]
    have hcn : s.conn fd = some c := hcf ▸ h.conn_eq hc
    unfold writeOne
    rw [hcn]
    simp only
    rcases hp : c.peer with _ | _ | _
    · simp only
      split_ifs with hl
      · simp [hl]
      · simpa using hl
    · simp only
      split_ifs with hl
      · simp [hl]
      · simpa using hl
    · simp only
      split_ifs <;> simp

/-- What the process does when it is neither ended nor waiting. -/
theorem c74_stops (zx : Option Byte) {packet : List Byte} (hp : packet.length = packetLen) (l : Limits) (as : List Act)
    (stale : List Char) (hs : ((Sys.start packet).acts zx l as).stopped = none) :
    ((∃ s', ((Sys.start packet).acts zx l as).daemon zx l stale = some s' ∧ s'.stopped ≠ none) ↔
      Fatal l ((Sys.start packet).acts zx l as)) ∧
    (((Sys.start packet).acts zx l as).daemon zx l stale = none ↔
      Blocked l ((Sys.start packet).acts zx l as) ∨ Idle ((Sys.start packet).acts zx l as)) :=
  ⟨stops_iff (inv_start zx hp l as) l stale hs, waits_iff (inv_start zx hp l as) l stale hs⟩

theorem acts_append (zx : Option Byte) (l : Limits) (s : Sys) (as as' : List Act) :
    s.acts zx l (as ++ as') = (s.acts zx l as).acts zx l as' := by
  simp [acts, List.foldl_append]

/-- If all descriptors are in use, there are many connections. -/
theorem full_length {l : Limits} {s : Sys} (h : ∀ fd, 5 ≤ fd → fd < l.descriptors → ∃ c ∈ s.conns, c.fd = fd) :
    l.descriptors ≤ s.conns.length + 5 := by
  have hsub : (List.range' 5 (l.descriptors - 5)) ⊆ s.conns.map Conn.fd := by
    intro fd hfd
    rw [List.mem_range'_1] at hfd
    obtain ⟨c, hc, hcf⟩ := h fd hfd.1 (by omega)
    exact List.mem_map.2 ⟨c, hc, hcf⟩
  have := (List.subperm_of_subset List.nodup_range' hsub).length_le
  simp only [List.length_range', List.length_map] at this
  omega

/-- C74, as far as it holds: the process does not end as long as the device is not removed, there are descriptors for
all the connections open and asked for, and no connection is reset while a report is being handed out; and it waits only
when there is nothing to do or a client does not read. Missing from the full claim: clients can end the process
(`c74_closed_refuted`, `c74_connections_refuted`) and they can block it (`c74_blocked_refuted`). -/
theorem c74_partial (zx : Option Byte) {packet : List Byte} (hp : packet.length = packetLen) (l : Limits) (as : List Act)
    (hplug : Act.unplug ∉ as)
    (hfds : ∀ as', as' <+: as → ((Sys.start packet).acts zx l as').conns.length +
      ((Sys.start packet).acts zx l as').backlog + 5 ≤ l.descriptors)
    (hreset : ∀ as', as' <+: as → ((Sys.start packet).acts zx l as').writing ≠ none →
      ∀ c ∈ ((Sys.start packet).acts zx l as').conns, c.peer ≠ .reset) :
    ((Sys.start packet).acts zx l as).stopped = none ∧
    ∀ stale, ((Sys.start packet).acts zx l as).daemon zx l stale = none →
      Blocked l ((Sys.start packet).acts zx l as) ∨ Idle ((Sys.start packet).acts zx l as) := by
  have key : ∀ as', as' <+: as → ((Sys.start packet).acts zx l as').stopped = none ∧
      ((Sys.start packet).acts zx l as').unplugged = false := by
    intro as'
    induction as' using List.reverseRecOn with
    | nil => exact fun _ => ⟨rfl, rfl⟩
    | append_singleton as' a ih =>
      intro hpre
      have hpre' : as' <+: as := (List.prefix_append _ _).trans hpre
      obtain ⟨ih1, ih2⟩ := ih hpre'
      have hinv := inv_start zx hp l as'
      have hf := hfds as' hpre'
      have hr := hreset as' hpre'
      have ha : a ∈ as := hpre.subset (by simp)
      rw [acts_append]
      generalize (Sys.start packet).acts zx l as' = s at hinv hf hr ih1 ih2 ⊢
      simp only [acts, List.foldl_cons, List.foldl_nil]
      rcases a with _ | ⟨fd, text⟩ | fd | fd | ⟨fd, n⟩ | data | _ | stale
      · exact ⟨ih1, ih2⟩
      · exact ⟨ih1, ih2⟩
      · exact ⟨ih1, ih2⟩
      · exact ⟨ih1, ih2⟩
      · exact ⟨ih1, ih2⟩
      · exact ⟨ih1, ih2⟩
      · exact absurd ha hplug
      · simp only [Sys.act]
        rcases hd : s.daemon zx l stale with _ | s'
        · exact ⟨ih1, ih2⟩
        · simp only [Option.getD_some]
          constructor
          · by_contra hst
            rcases (stops_iff hinv l stale ih1).1 ⟨s', hd, hst⟩ with
              ⟨text, fd, fds, h1, c, hc, -, h2, -⟩ | ⟨-, ⟨rest, h1⟩, h2⟩ | ⟨-, h1, -⟩
            · exact hr (by simp [h1]) c hc h2
            · have h3 := hinv.todoSock (by simp [h1, sockFd])
              have h4 := full_length h2
              omega
            · rw [ih2] at h1
              cases h1
          · rw [← ih2]
            exact daemon_unplugged hd
  refine ⟨(key as (List.prefix_refl _)).1, fun stale hd => ?_⟩
  exact (waits_iff (inv_start zx hp l as) l stale (key as (List.prefix_refl _)).1).1 hd

/-! ### Rounds of the loop -/

theorem acts_cons (zx : Option Byte) (l : Limits) (s : Sys) (a : Act) (as : List Act) :
    s.acts zx l (a :: as) = (s.act zx l a).acts zx l as := rfl

theorem acts_nil (zx : Option Byte) (l : Limits) (s : Sys) : s.acts zx l [] = s := rfl

/-- The process runs, no connection waits and the device is there; the rest as given. -/
structure Phase (s : Sys) (table : List Nat) (w : Option (List Char × List Nat)) (todo : List Nat)
    (reports : List (List Byte)) : Prop where
  stopped : s.stopped = none
  writing : s.writing = w
  todo : s.todo = todo
  backlog : s.backlog = 0
  reports : s.reports = reports
  unplugged : s.unplugged = false
  table : inTable s.d = table

/-- What a connection is after it took some characters. -/
def taken (n : Nat) (c : Conn) : Conn := { c with unread := c.unread + n, poked := c.poked || decide (c.peer = .closed) }

section
variable {zx : Option Byte} {l : Limits} {packet : List Byte} {s : Sys} {made : List (List Byte)} {asked : Nat}
  {table : List Nat} {w : Option (List Char × List Nat)} {todo : List Nat} {reports : List (List Byte)}

theorem phase_update (h : Phase s table w todo reports) (fd : Nat) (f : Conn → Conn) :
    Phase (s.update fd f) table w todo reports := ⟨h.1, h.2, h.3, h.4, h.5, h.6, h.7⟩

theorem phase_report (h : Phase s table w todo reports) (r : List Byte) :
    Phase (s.act zx l (.report r)) table w todo (reports ++ [r.take packetLen]) :=
  ⟨h.1, h.2, h.3, h.4, by simp [Sys.act, h.5], h.6, h.7⟩

theorem ready_low (hi : Inv zx packet s made asked) {i : Nat} (h : i < 3) : s.ready i = false := by
  unfold ready
  rw [if_neg (by unfold sockFd; omega), if_neg (by unfold deviceFd; omega)]
  simp only [Bool.and_eq_false_iff, decide_eq_false_iff_not]
  left
  rw [← hi.fds]
  intro hm
  obtain ⟨c, hc, hci⟩ := List.mem_map.1 hm
  have := (hi.high c hc).1
  unfold deviceFd at this
  omega

theorem range_split : List.range fdSetSize = [0, 1, 2, 3, 4] ++ List.range' 5 1019 := by
  rw [List.range_eq_range']
  exact List.range'_append (s := 0) (m := 5) (n := 1019) (step := 1) |>.symm

theorem ready_none (hc : ∀ c ∈ s.conns, c.input = [] ∧ c.peer = .up) : (List.range' 5 1019).filter s.ready = [] := by
  rw [List.filter_eq_nil_iff]
  intro i hi
  rw [List.mem_range'_1] at hi
  simp only [ready, if_neg (show ¬ i = sockFd by unfold sockFd; omega), if_neg (show ¬ i = deviceFd by unfold deviceFd; omega),
    Bool.and_eq_true, List.any_eq_true, decide_eq_true_eq, Conn.ready, not_and, not_exists]
  rintro - c hcm -
  simp [hc c hcm]

theorem phase_select (hi : Inv zx packet s made asked) (h : Phase s table none [] reports) (hr : reports ≠ []) :
    ∃ tail, Phase (s.act zx l (.daemon [])) table none (deviceFd :: tail) reports ∧
      (s.act zx l (.daemon [])).conns = s.conns ∧
      ((∀ c ∈ s.conns, c.input = [] ∧ c.peer = .up) → tail = []) := by
  have hf : (List.range fdSetSize).filter s.ready = deviceFd :: (List.range' 5 1019).filter s.ready := by
    rw [range_split, List.filter_append]
    have r3 : s.ready 3 = false := by simp [ready, sockFd, h.backlog]
    have r4 : s.ready 4 = true := by simp [ready, sockFd, deviceFd, h.reports, hr]
    simp only [List.filter_cons, ready_low hi (i := 0) (by decide), ready_low hi (i := 1) (by decide),
      ready_low hi (i := 2) (by decide), r3, r4]
    rfl
  have hd : s.act zx l (.daemon []) = { s with todo := deviceFd :: (List.range' 5 1019).filter s.ready } := by
    simp only [Sys.act]
    rw [daemon_select h.stopped h.writing h.todo, hf, if_neg (by simp)]
    rfl
  rw [hd]
  exact ⟨_, ⟨h.1, h.2, rfl, h.4, h.5, h.6, h.7⟩, rfl, ready_none⟩

/-- The number of characters for a report. -/
def lineLen (r : List Byte) : Nat := 2 * r.length + 1

theorem phase_handle (hi : Inv zx packet s made asked) {r : List Byte} (h : Phase s table none (deviceFd :: todo) (r :: reports)) :
    ∃ text, text.length = lineLen r ∧ Phase (s.act zx l (.daemon [])) table (some (text, table)) todo reports ∧
      (s.act zx l (.daemon [])).conns = s.conns := by
  have hd : s.act zx l (.daemon []) = { s with
      todo := todo
      d := Daemon.step zx s.d (.report r)
      trace := s.trace ++ [.report r]
      reports := reports
      writing := some (clientText (overwrite r s.d.packet) r.length, table) } := by
    simp only [Sys.act]
    rw [daemon_todo h.stopped h.writing h.todo, if_neg (by decide), if_pos rfl]
    simp only [reportOne, h.unplugged, Bool.false_eq_true, if_false, h.reports, Option.getD_some, hi.table_pos, h.table]
  rw [hd]
  refine ⟨_, ?_, ⟨h.1, rfl, rfl, h.4, rfl, h.6, h.7⟩, rfl⟩
  unfold clientText overwrite lineLen
  rw [List.take_left' rfl]
  have hx : ∀ m : List Byte, (hexLower m).length = 2 * m.length := by
    intro m
    induction m with
    | nil => rfl
    | cons b m ih =>
      simp only [hexLower, List.flatMap_cons, List.length_append, List.length_cons, List.length_nil] at ih ⊢
      omega
  simp [hx]

theorem phase_end {text : List Char} (h : Phase s table (some (text, [])) todo reports) :
    Phase (s.act zx l (.daemon [])) table none todo reports ∧ (s.act zx l (.daemon [])).conns = s.conns := by
  have hd : s.act zx l (.daemon []) = { s with writing := none } := by
    simp only [Sys.act]
    rw [daemon_end h.stopped h.writing]
    rfl
  rw [hd]
  exact ⟨⟨h.1, rfl, h.3, h.4, h.5, h.6, h.7⟩, rfl⟩

theorem phase_write (hi : Inv zx packet s made asked) {text : List Char} {fd : Nat} {fds : List Nat}
    (h : Phase s table (some (text, fd :: fds)) todo reports)
    (hc : ∀ c ∈ s.conns, c.fd = fd → c.unread + text.length ≤ l.buffer ∧ c.peer ≠ .reset) :
    Phase (s.act zx l (.daemon [])) table (some (text, fds)) todo reports ∧
      (s.act zx l (.daemon [])).conns = s.conns.map fun c => if c.fd = fd then taken text.length c else c := by
  obtain ⟨c, hcm, hcf⟩ := (hi.writing _ _ h.writing).2 fd List.mem_cons_self
  obtain ⟨h1, h2⟩ := hc c hcm hcf
  have hcn : s.conn fd = some c := hcf ▸ hi.conn_eq hcm
  have hu : ∀ f : Conn → Conn, f c = taken text.length c →
      (s.conns.map fun c => if c.fd = fd then f c else c) = s.conns.map fun c => if c.fd = fd then taken text.length c else c := by
    intro f hf
    refine List.map_congr_left fun c' hc' => ?_
    by_cases hcf' : c'.fd = fd
    · rw [if_pos hcf', if_pos hcf', hi.unique hc' hcm (hcf'.trans hcf.symm), hf]
    · rw [if_neg hcf', if_neg hcf']
  have hd : s.act zx l (.daemon []) = { s with
      writing := some (text, fds)
      wrote := s.wrote ++ [(fd, text)]
      conns := s.conns.map fun c => if c.fd = fd then taken text.length c else c } := by
    simp only [Sys.act]
    rw [daemon_write h.stopped h.writing]
    unfold writeOne
    rw [hcn]
    simp only
    rcases hp : c.peer with _ | _ | _
    · simp only
      rw [if_pos h1]
      simp only [Option.getD_some, Sys.update]
      rw [hu]
      simp [taken, hp]
    · simp only
      rw [if_pos h1]
      simp only [Option.getD_some, Sys.update]
      rw [hu]
      simp [taken, hp]
    · exact absurd hp h2
  rw [hd]
  exact ⟨⟨h.1, rfl, h.3, h.4, h.5, h.6, h.7⟩, rfl⟩

theorem phase_writes (hi : Inv zx packet s made asked) {text : List Char} {fds rest : List Nat} (hn : fds.Nodup)
    (h : Phase s table (some (text, fds ++ rest)) todo reports)
    (hc : ∀ c ∈ s.conns, c.fd ∈ fds → c.unread + text.length ≤ l.buffer ∧ c.peer ≠ .reset) :
    Phase (s.acts zx l (List.replicate fds.length (.daemon []))) table (some (text, rest)) todo reports ∧
      (s.acts zx l (List.replicate fds.length (.daemon []))).conns =
        s.conns.map fun c => if c.fd ∈ fds then taken text.length c else c := by
  induction fds generalizing s made asked with
  | nil => exact ⟨h, by simp [acts]⟩
  | cons fd fds ih =>
    obtain ⟨h1, h2⟩ := phase_write (zx := zx) (l := l) hi h (fun c hcm hcf => hc c hcm (by simp [hcf]))
    rw [List.nodup_cons] at hn
    simp only [List.length_cons, List.replicate_succ, acts_cons]
    obtain ⟨h3, h4⟩ := ih (hi.act l (.daemon [])) hn.2 h1 (by
      rw [h2]
      intro c hcm hcf
      obtain ⟨c0, hc0, rfl⟩ := List.mem_map.1 hcm
      by_cases hf : c0.fd = fd
      · rw [if_pos hf] at hcf
        exact absurd (hf ▸ hcf) hn.1
      · rw [if_neg hf] at hcf ⊢
        exact hc c0 hc0 (List.mem_cons_of_mem _ hcf))
    refine ⟨h3, ?_⟩
    rw [h4, h2, List.map_map]
    refine List.map_congr_left fun c _ => ?_
    simp only [Function.comp_apply]
    by_cases hf : c.fd = fd
    · have : (taken text.length c).fd ∉ fds := fun hm => hn.1 (hf ▸ hm)
      rw [if_pos hf, if_neg this, if_pos (by simp [hf])]
    · rw [if_neg hf]
      simp [hf]

end

/-- C74 does not hold, by a client that closes its connection: from every state in which there is nothing to do, for every
client of the table and any two reports, the client closes its connection while the first report is being handed out, the
client's kernel answers with a reset, and handing out the second report ends the process. -/
theorem c74_closed_refuted (zx : Option Byte) {packet : List Byte} (hp : packet.length = packetLen) (l : Limits) (as : List Act)
    (hs : ((Sys.start packet).acts zx l as).stopped = none) (hidle : Idle ((Sys.start packet).acts zx l as))
    (hup : ∀ c ∈ ((Sys.start packet).acts zx l as).conns, c.input = [] ∧ c.peer = .up ∧ c.unread + 226 ≤ l.buffer)
    {fd : Nat} (hfd : fd ∈ inTable ((Sys.start packet).acts zx l as).d) (r r' : List Byte) :
    ∃ n m, ((Sys.start packet).acts zx l (as ++ ([.report r, .daemon [], .daemon [], .close fd] ++
      List.replicate n (.daemon []) ++ [.reset fd, .report r'] ++ List.replicate m (.daemon [])))).stopped = some .killed := by
  have hi := inv_start zx hp l as
  simp only [acts_append _ _ _ as]
  generalize (Sys.start packet).acts zx l as = s at hs hidle hup hfd hi ⊢
  generalize reportsMade as = made at hi
  generalize connectsMade as = asked at hi
  obtain ⟨i1, i2, i3, i4, i5, -⟩ := hidle
  have p0 : Phase s (inTable s.d) none [] [] := ⟨hs, i1, i2, i3, i4, i5, rfl⟩
  have hnd := hi.holds.table
  generalize inTable s.d = T at p0 hfd hnd
  obtain ⟨pre, post, hT⟩ := List.append_of_mem hfd
  refine ⟨T.length + 1, 2 + (pre.length + 1), ?_⟩
  have hlen : ∀ x : List Byte, lineLen (x.take packetLen) ≤ 113 := fun x => by
    simp only [lineLen, List.length_take, packetLen]
    omega
  rw [acts_append, acts_append, acts_append]
  -- the first report
  simp only [acts_cons]
  have q1 := phase_report (zx := zx) (l := l) p0 r
  have j1 := hi.act l (.report r)
  have c1 : (s.act zx l (.report r)).conns = s.conns := rfl
  generalize s.act zx l (.report r) = s1 at q1 j1 c1 ⊢
  obtain ⟨tail, q2, c2, t2⟩ := phase_select (zx := zx) (l := l) j1 q1 (by simp)
  obtain rfl := t2 (by
    rw [c1]
    exact fun c hc => ⟨(hup c hc).1, (hup c hc).2.1⟩)
  have j2 := j1.act l (.daemon [])
  generalize s1.act zx l (.daemon []) = s2 at q2 c2 j2 ⊢
  obtain ⟨text, ht, q3, c3⟩ := phase_handle (zx := zx) (l := l) j2 q2
  have j3 := j2.act l (.daemon [])
  generalize s2.act zx l (.daemon []) = s3 at q3 c3 j3 ⊢
  have q4 := phase_update q3 fd (fun c => if c.peer = .up then { c with peer := .closed } else c)
  have j4 := j3.act l (.close fd)
  have c4 : (s3.act zx l (.close fd)).conns = s.conns.map fun c => if c.fd = fd then { c with peer := .closed } else c := by
    simp only [Sys.act, Sys.update]
    rw [c3, c2, c1]
    refine List.map_congr_left fun c hc => ?_
    rw [if_pos (hup c hc).2.1]
  replace q4 : Phase (s3.act zx l (.close fd)) T (some (text, T)) [] [] := q4
  generalize s3.act zx l (.close fd) = s4 at q4 c4 j4 ⊢
  -- handing it out
  simp only [acts_nil]
  rw [List.replicate_add T.length 1, acts_append _ _ s4]
  obtain ⟨q5, c5⟩ := phase_writes (zx := zx) (l := l) (rest := []) j4 hnd (by simpa using q4) (by
    rw [c4, ht]
    intro c hc _
    obtain ⟨c0, hc0, rfl⟩ := List.mem_map.1 hc
    have := (hup c0 hc0).2.2
    have := hlen r
    split_ifs
    · exact ⟨by simp only; omega, nofun⟩
    · exact ⟨by omega, by simp [(hup c0 hc0).2.1]⟩)
  have j5 := inv_acts j4 l (List.replicate T.length (.daemon []))
  generalize s4.acts zx l (List.replicate T.length (.daemon [])) = s5 at q5 c5 j5 ⊢
  simp only [List.replicate_one, acts_cons]
  simp only [acts_nil]
  obtain ⟨q6, c6⟩ := phase_end (zx := zx) (l := l) q5
  have j6 := j5.act l (.daemon [])
  generalize s5.act zx l (.daemon []) = s6 at q6 c6 j6 ⊢
  -- the reset and the second report
  have q7 := phase_update q6 fd Conn.onReset
  have j7 := j6.act l (.reset fd)
  replace q7 : Phase (s6.act zx l (.reset fd)) T none [] [] := q7
  have c7 : (s6.act zx l (.reset fd)).conns = s.conns.map fun c =>
      if c.fd = fd then { taken text.length { c with peer := .closed } with peer := .reset }
      else if c.fd ∈ T then taken text.length c else c := by
    simp only [Sys.act, Sys.update]
    rw [c6, c5, c4, List.map_map, List.map_map]
    refine List.map_congr_left fun c hc => ?_
    simp only [Function.comp_apply]
    by_cases hcf : c.fd = fd
    · have hct : c.fd ∈ T := hcf ▸ hfd
      simp only [hcf, if_true, hfd]
      rw [if_pos (by simp [taken, hcf])]
      simp [Conn.onReset, taken]
    · simp only [hcf, if_false]
      rw [if_neg (by split_ifs <;> simp [taken, hcf])]
  generalize s6.act zx l (.reset fd) = s7 at q7 c7 j7 ⊢
  have q8 := phase_report (zx := zx) (l := l) q7 r'
  have j8 := j7.act l (.report r')
  have c8 : (s7.act zx l (.report r')).conns = s7.conns := rfl
  generalize s7.act zx l (.report r') = s8 at q8 j8 c8 ⊢
  -- handing it out
  rw [List.replicate_add 2, acts_append _ _ s8, show List.replicate 2 (Act.daemon []) = [.daemon [], .daemon []] from rfl]
  simp only [acts_cons]
  simp only [acts_nil]
  obtain ⟨tail, q9, c9, -⟩ := phase_select (zx := zx) (l := l) j8 q8 (by simp)
  have j9 := j8.act l (.daemon [])
  generalize s8.act zx l (.daemon []) = s9 at q9 c9 j9 ⊢
  obtain ⟨text', ht', q10, c10⟩ := phase_handle (zx := zx) (l := l) j9 q9
  have j10 := j9.act l (.daemon [])
  generalize s9.act zx l (.daemon []) = s10 at q10 c10 j10 ⊢
  rw [hT] at hnd
  have hnd' := List.nodup_append.1 hnd
  rw [List.replicate_add pre.length 1, acts_append _ _ s10]
  obtain ⟨q11, c11⟩ := phase_writes (zx := zx) (l := l) (fds := pre) (rest := fd :: post) j10 hnd'.1 (by rw [← hT]; exact q10) (by
    rw [c10, c9, c8, c7]
    intro c hc hpre
    obtain ⟨c0, hc0, rfl⟩ := List.mem_map.1 hc
    have := (hup c0 hc0).2.2
    have := hlen r
    have := hlen r'
    have hne : c0.fd ≠ fd := by
      intro he
      rw [if_pos he] at hpre
      exact hnd'.2.2 _ hpre _ List.mem_cons_self he
    rw [if_neg hne]
    split_ifs
    · exact ⟨by simp only [taken]; omega, by simp [taken, (hup c0 hc0).2.1]⟩
    · exact ⟨by omega, by simp [(hup c0 hc0).2.1]⟩)
  have j11 := inv_acts j10 l (List.replicate pre.length (.daemon []))
  generalize s10.acts zx l (List.replicate pre.length (.daemon [])) = s11 at q11 c11 j11 ⊢
  obtain ⟨c, hc, hcf⟩ := (j11.writing _ _ q11.writing).2 fd List.mem_cons_self
  have hcn : s11.conn fd = some c := hcf ▸ j11.conn_eq hc
  have hcr : c.peer = .reset ∧ c.error = false := by
    rw [c11, c10, c9, c8, c7, List.map_map] at hc
    obtain ⟨c0, hc0, rfl⟩ := List.mem_map.1 hc
    simp only [Function.comp_apply] at hcf ⊢
    by_cases hf : c0.fd = fd
    · have hr : ∀ c : Conn, c.peer = .reset ∧ c.error = false →
          (if c.fd ∈ pre then taken text'.length c else c).peer = .reset ∧
          (if c.fd ∈ pre then taken text'.length c else c).error = false := fun c hc => by split_ifs <;> exact hc
      refine hr _ ?_
      rw [if_pos hf]
      refine ⟨rfl, ?_⟩
      exact (hi.high c0 hc0).2.2 (by simp [(hup c0 hc0).2.1])
    · refine absurd hcf ?_
      have hr : ∀ (T : List Nat) (n : Nat) (c : Conn), (if c.fd ∈ T then taken n c else c).fd = c.fd :=
        fun T n c => by split_ifs <;> rfl
      rw [hr, if_neg hf, hr]
      exact hf
  simp only [List.replicate_one, acts_cons, Sys.act]
  rw [daemon_write q11.stopped q11.writing, writeOne, hcn]
  simp only [hcr.1, hcr.2]
  rfl

/-! ### Connections -/

/-- A connection is asked for and accepted. -/
theorem connect_round {zx : Option Byte} {packet : List Byte} {s : Sys} {made : List (List Byte)} {asked : Nat} {table : List Nat}
    (l : Limits) (hi : Inv zx packet s made asked) (h : Phase s table none [] [])
    (hc : ∀ c ∈ s.conns, c.input = [] ∧ c.peer = .up) :
    (s.acts zx l [.connect, .daemon [], .daemon []] = { s with backlog := 1, stopped := some .exited } ∧
      (∀ fd, 5 ≤ fd → fd < l.descriptors → ∃ c ∈ s.conns, c.fd = fd)) ∨
    ∃ fd table', 4 < fd ∧ fd < l.descriptors ∧ (∀ c ∈ s.conns, c.fd ≠ fd) ∧
      Phase (s.acts zx l [.connect, .daemon [], .daemon []]) table' none [] [] ∧
      (s.acts zx l [.connect, .daemon [], .daemon []]).conns = { fd := fd } :: s.conns := by
  simp only [acts_cons, acts_nil]
  have j1 := hi.act l .connect
  have e1 : s.act zx l .connect = { s with backlog := 1 } := by simp [Sys.act, h.backlog]
  rw [e1] at j1 ⊢
  have hf : (List.range fdSetSize).filter (Sys.ready { s with backlog := 1 }) = [sockFd] := by
    rw [range_split, List.filter_append, ready_none (s := { s with backlog := 1 }) hc]
    have r3 : Sys.ready { s with backlog := 1 } 3 = true := by simp [ready, sockFd]
    have r4 : Sys.ready { s with backlog := 1 } 4 = false := by
      simp [ready, sockFd, deviceFd, h.reports, h.unplugged]
    simp only [List.filter_cons, ready_low j1 (i := 0) (by decide), ready_low j1 (i := 1) (by decide),
      ready_low j1 (i := 2) (by decide), r3, r4]
    rfl
  have e2 : Sys.act zx l { s with backlog := 1 } (.daemon []) = { s with backlog := 1, todo := [sockFd] } := by
    simp only [Sys.act]
    rw [daemon_select (s := { s with backlog := 1 }) h.stopped h.writing h.todo, hf, if_neg (by simp)]
    rfl
  rw [e2]
  have e3 : Sys.act zx l { s with backlog := 1, todo := [sockFd] } (.daemon []) =
      Sys.acceptOne zx l { s with backlog := 1, todo := [] } := by
    simp only [Sys.act]
    rw [daemon_todo (s := { s with backlog := 1, todo := [sockFd] }) h.stopped h.writing rfl, if_pos rfl]
    rfl
  rw [e3, show ({ s with backlog := 1, todo := [] } : Sys) = { s with backlog := 1 } from by rw [← h.todo]]
  unfold acceptOne
  rcases hfd : Sys.freeFd l { s with backlog := 1 } with _ | fd
  · exact .inl ⟨rfl, Inv.freeFd_none hfd⟩
  · obtain ⟨f1, f2, f3⟩ := Inv.freeFd_some hfd
    exact .inr ⟨fd, _, f1, f3, f2, ⟨h.1, h.2, h.3, rfl, h.5, h.6, rfl⟩, rfl⟩

/-- C74 does not hold, by clients that stay connected: from every state in which there is nothing to do, asking for
connections often enough ends the process; and if the kernel allows more than 1024 descriptors, by then the process has
written outside its descriptor set. -/
theorem c74_connections_refuted (zx : Option Byte) {packet : List Byte} (hp : packet.length = packetLen) (l : Limits)
    (as : List Act) (hs : ((Sys.start packet).acts zx l as).stopped = none)
    (hidle : Idle ((Sys.start packet).acts zx l as))
    (hup : ∀ c ∈ ((Sys.start packet).acts zx l as).conns, c.input = [] ∧ c.peer = .up) :
    ∃ n, n ≤ l.descriptors + 1 ∧
      ((Sys.start packet).acts zx l (as ++ (List.replicate n [Act.connect, .daemon [], .daemon []]).flatten)).stopped =
        some .exited ∧
      (1024 < l.descriptors →
        ((Sys.start packet).acts zx l (as ++ (List.replicate n [Act.connect, .daemon [], .daemon []]).flatten)).wild = true) := by
  have hi := inv_start zx hp l as
  simp only [acts_append _ _ _ as]
  generalize (Sys.start packet).acts zx l as = s at hs hidle hup hi ⊢
  generalize reportsMade as = made at hi
  generalize connectsMade as = asked at hi
  obtain ⟨i1, i2, i3, i4, i5, -⟩ := hidle
  have p0 : Phase s (inTable s.d) none [] [] := ⟨hs, i1, i2, i3, i4, i5, rfl⟩
  generalize inTable s.d = T at p0
  have key : ∀ k s made asked T, Inv zx packet s made asked → Phase s T none [] [] →
      (∀ c ∈ s.conns, c.input = [] ∧ c.peer = .up) →
      ((List.range l.descriptors).filter fun fd => decide (∀ c ∈ s.conns, c.fd ≠ fd)).length ≤ k →
      ∃ n, n ≤ k + 1 ∧
      (s.acts zx l (List.replicate n [Act.connect, .daemon [], .daemon []]).flatten).stopped = some .exited ∧
      (1024 < l.descriptors → (s.acts zx l (List.replicate n [Act.connect, .daemon [], .daemon []]).flatten).wild = true) := by
    intro k
    induction k with
    | zero =>
      intro s made asked T hi p0 hup hk
      rcases connect_round l hi p0 hup with ⟨h1, h2⟩ | ⟨fd, T', h1, h2, h3, -⟩
      · refine ⟨1, by omega, ?_⟩
        simp only [List.replicate_one, List.flatten_cons, List.flatten_nil, List.append_nil, h1, true_and]
        intro hl
        obtain ⟨c, hc, hcf⟩ := h2 1024 (by decide) hl
        exact (hi.high c hc).2.1 (by rw [hcf]; decide)
      · have : fd ∈ (List.range l.descriptors).filter fun fd => decide (∀ c ∈ s.conns, c.fd ≠ fd) := by
          simp only [List.mem_filter, List.mem_range, decide_eq_true_eq]
          exact ⟨h2, h3⟩
        have := List.length_pos_of_mem this
        omega
    | succ k ih =>
      intro s made asked T hi p0 hup hk
      rcases connect_round l hi p0 hup with ⟨h1, h2⟩ | ⟨fd, T', h1, h2, h3, h4, h5⟩
      · refine ⟨1, by omega, ?_⟩
        simp only [List.replicate_one, List.flatten_cons, List.flatten_nil, List.append_nil, h1, true_and]
        intro hl
        obtain ⟨c, hc, hcf⟩ := h2 1024 (by decide) hl
        exact (hi.high c hc).2.1 (by rw [hcf]; decide)
      · have hlt : ((List.range l.descriptors).filter fun f =>
            decide (∀ c ∈ ({ fd := fd } : Conn) :: s.conns, c.fd ≠ f)).length <
            ((List.range l.descriptors).filter fun fd => decide (∀ c ∈ s.conns, c.fd ≠ fd)).length := by
          have e : ((List.range l.descriptors).filter fun f => decide (∀ c ∈ ({ fd := fd } : Conn) :: s.conns, c.fd ≠ f)) =
              ((List.range l.descriptors).filter fun fd => decide (∀ c ∈ s.conns, c.fd ≠ fd)).filter fun f => decide (fd ≠ f) := by
            rw [List.filter_filter]
            refine List.filter_congr fun f _ => ?_
            simp
          rw [e]
          refine List.length_filter_lt_length_iff_exists.2 ⟨fd, ?_, by simp⟩
          simp only [List.mem_filter, List.mem_range, decide_eq_true_eq]
          exact ⟨h2, h3⟩
        obtain ⟨n, hn, h6⟩ := ih _ _ _ T' (inv_acts hi l [.connect, .daemon [], .daemon []]) h4 (by
          rw [h5]
          intro c hc
          rcases List.mem_cons.1 hc with rfl | hc
          · exact ⟨rfl, rfl⟩
          · exact hup c hc) (by rw [h5]; omega)
        refine ⟨n + 1, by omega, ?_⟩
        rw [List.replicate_succ, List.flatten_cons, acts_append]
        exact h6
  refine key _ s made asked T hi p0 hup ?_
  exact (List.length_filter_le _ _).trans (by simp)

/-! ### A client that does not read -/

/-- While a client does nothing to which the process is blocked in writing, the process does nothing. -/
theorem blocked_act {zx : Option Byte} {packet : List Byte} {s : Sys} {made : List (List Byte)} {asked : Nat}
    (l : Limits) (hi : Inv zx packet s made asked) (hs : s.stopped = none) {text : List Char} {fd : Nat} {fds : List Nat}
    (hw : s.writing = some (text, fd :: fds)) {c : Conn} (hc : c ∈ s.conns) (hcf : c.fd = fd) (hp : c.peer ≠ .reset)
    (hb : l.buffer < c.unread + text.length) {a : Act} (ha : ¬ ActOf fd a) :
    (s.act zx l a).stopped = none ∧ (s.act zx l a).writing = some (text, fd :: fds) ∧ c ∈ (s.act zx l a).conns ∧
    (s.act zx l a).d = s.d ∧ (s.act zx l a).wrote = s.wrote := by
  have hu : ∀ (g : Nat) (f : Conn → Conn), g ≠ fd → c ∈ (s.update g f).conns := by
    intro g f hg
    refine List.mem_map.2 ⟨c, hc, ?_⟩
    rw [if_neg (by rw [hcf]; exact fun he => hg he.symm)]
  rcases a with _ | ⟨g, t⟩ | g | g | ⟨g, n⟩ | data | _ | stale
  · exact ⟨hs, hw, hc, rfl, rfl⟩
  · exact ⟨hs, hw, hu _ _ ha, rfl, rfl⟩
  · exact ⟨hs, hw, hu _ _ ha, rfl, rfl⟩
  · exact ⟨hs, hw, hu _ _ ha, rfl, rfl⟩
  · exact ⟨hs, hw, hu _ _ ha, rfl, rfl⟩
  · exact ⟨hs, hw, hc, rfl, rfl⟩
  · exact ⟨hs, hw, hc, rfl, rfl⟩
  · have hd : s.act zx l (.daemon stale) = s := by
      simp only [Sys.act]
      rw [(waits_iff hi l stale hs).2 (.inl ⟨text, fd, fds, hw, c, hc, hcf, hp, hb⟩)]
      rfl
    rw [hd]
    exact ⟨hs, hw, hc, rfl, rfl⟩

theorem blocked_acts {zx : Option Byte} {packet : List Byte} {s : Sys} {made : List (List Byte)} {asked : Nat}
    (l : Limits) (hi : Inv zx packet s made asked) (hs : s.stopped = none) {text : List Char} {fd : Nat} {fds : List Nat}
    (hw : s.writing = some (text, fd :: fds)) {c : Conn} (hc : c ∈ s.conns) (hcf : c.fd = fd) (hp : c.peer ≠ .reset)
    (hb : l.buffer < c.unread + text.length) {as : List Act} (ha : ∀ a ∈ as, ¬ ActOf fd a) :
    (s.acts zx l as).d = s.d ∧ (s.acts zx l as).wrote = s.wrote := by
  induction as generalizing s made asked with
  | nil => exact ⟨rfl, rfl⟩
  | cons a as ih =>
    obtain ⟨h1, h2, h3, h4, h5⟩ := blocked_act l hi hs hw hc hcf hp hb (ha a List.mem_cons_self)
    rw [acts_cons]
    obtain ⟨h6, h7⟩ := ih (hi.act l a) h1 h2 h3 (fun b hb => ha b (List.mem_cons_of_mem _ hb))
    exact ⟨h6.trans h4, h7.trans h5⟩

/-- The other clients read everything. -/
theorem reads {zx : Option Byte} {packet : List Byte} {s : Sys} {made : List (List Byte)} {asked : Nat} {table : List Nat}
    (l : Limits) (hi : Inv zx packet s made asked) (h : Phase s table none [] []) {fd : Nat} (gs : List Nat)
    (hg : fd ∉ gs) {u : Nat}
    (hc : ∀ c ∈ s.conns, c.input = [] ∧ c.peer = .up ∧ (c.fd = fd → c.unread = u) ∧ (c.fd ≠ fd → c.unread ≤ l.buffer ∧
      (c.fd ∉ gs → c.unread = 0))) :
    Phase (s.acts zx l (gs.map fun g => .read g l.buffer)) table none [] [] ∧
    ∀ c ∈ (s.acts zx l (gs.map fun g => .read g l.buffer)).conns, c.input = [] ∧ c.peer = .up ∧ (c.fd = fd → c.unread = u) ∧
      (c.fd ≠ fd → c.unread = 0) := by
  induction gs generalizing s made asked with
  | nil =>
    refine ⟨h, fun c hcm => ?_⟩
    obtain ⟨h1, h2, h3, h4⟩ := hc c hcm
    exact ⟨h1, h2, h3, fun hne => (h4 hne).2 (by simp)⟩
  | cons g gs ih =>
    rw [List.map_cons, acts_cons]
    refine ih (hi.act l (.read g l.buffer)) (phase_update h _ _) (fun hm => hg (List.mem_cons_of_mem _ hm)) ?_
    intro c hcm
    obtain ⟨c0, hc0, rfl⟩ := List.mem_map.1 hcm
    obtain ⟨h1, h2, h3, h4⟩ := hc c0 hc0
    by_cases hcg : c0.fd = g
    · rw [if_pos hcg]
      refine ⟨h1, h2, fun he => absurd (List.mem_cons.2 (.inl (he.symm.trans hcg))) hg, fun hne => ?_⟩
      have := (h4 hne).1
      exact ⟨by simp only; omega, fun _ => by simp only; omega⟩
    · rw [if_neg hcg]
      refine ⟨h1, h2, h3, fun hne => ⟨(h4 hne).1, fun hm => (h4 hne).2 (by simp [hcg, hm])⟩⟩

/-- C74 does not hold, by a client that stays connected and does not read: from every state in which there is nothing to do,
for every client of the table, enough reports block the process, although all other clients read everything; and as long
as that client does nothing, the process neither reads nor writes anything any more, whatever the others and the device
do. -/
theorem c74_blocked_refuted (zx : Option Byte) {packet : List Byte} (hp : packet.length = packetLen) (l : Limits) (as : List Act)
    (hs : ((Sys.start packet).acts zx l as).stopped = none) (hidle : Idle ((Sys.start packet).acts zx l as))
    {fd : Nat} (hfd : fd ∈ inTable ((Sys.start packet).acts zx l as).d)
    (hup : ∀ c ∈ ((Sys.start packet).acts zx l as).conns, c.input = [] ∧ c.peer = .up ∧ (c.fd ≠ fd → c.unread = 0))
    (r : List Byte) (hl : 113 ≤ l.buffer) :
    ∃ as', (∀ a ∈ as', a = .report r ∨ a = .daemon [] ∨ ∃ g, g ≠ fd ∧ a = .read g l.buffer) ∧
      ((Sys.start packet).acts zx l (as ++ as')).stopped = none ∧
      Blocked l ((Sys.start packet).acts zx l (as ++ as')) ∧
      ∀ as'', (∀ a ∈ as'', ¬ ActOf fd a) →
        ((Sys.start packet).acts zx l (as ++ as' ++ as'')).d = ((Sys.start packet).acts zx l (as ++ as')).d ∧
        ((Sys.start packet).acts zx l (as ++ as' ++ as'')).wrote = ((Sys.start packet).acts zx l (as ++ as')).wrote := by
  have hi := inv_start zx hp l as
  simp only [acts_append]
  generalize (Sys.start packet).acts zx l as = s at hs hidle hup hfd hi ⊢
  generalize reportsMade as = made at hi
  generalize connectsMade as = asked at hi
  obtain ⟨i1, i2, i3, i4, i5, -⟩ := hidle
  have p0 : Phase s (inTable s.d) none [] [] := ⟨hs, i1, i2, i3, i4, i5, rfl⟩
  have hnd := hi.holds.table
  generalize inTable s.d = T at p0 hfd hnd
  have hlen : 1 ≤ lineLen (r.take packetLen) ∧ lineLen (r.take packetLen) ≤ 113 := by
    simp only [lineLen, List.length_take, packetLen]
    omega
  have huniq : ∃ u, ∀ c ∈ s.conns, c.fd = fd → c.unread = u := by
    by_cases hex : ∃ c ∈ s.conns, c.fd = fd
    · obtain ⟨c, hc, hcf⟩ := hex
      exact ⟨c.unread, fun c' hc' hcf' => by rw [hi.unique hc' hc (hcf'.trans hcf.symm)]⟩
    · exact ⟨0, fun c hc hcf => absurd ⟨c, hc, hcf⟩ hex⟩
  obtain ⟨u, hu⟩ := huniq
  have hup' : ∀ c ∈ s.conns, c.input = [] ∧ c.peer = .up ∧ (c.fd = fd → c.unread = u) ∧ (c.fd ≠ fd → c.unread = 0) :=
    fun c hc => ⟨(hup c hc).1, (hup c hc).2.1, hu c hc, (hup c hc).2.2⟩
  clear hup hu i1 i2 i3 i4 i5 hs
  obtain ⟨pre, post, hT⟩ := List.append_of_mem hfd
  generalize hk : l.buffer + 1 - u = k
  induction k using Nat.strongRecOn generalizing s made asked u with
  | _ k ih =>
    have q1 := phase_report (zx := zx) (l := l) p0 r
    have j1 := hi.act l (.report r)
    have c1 : (s.act zx l (.report r)).conns = s.conns := rfl
    have e1 : s.acts zx l [.report r, .daemon [], .daemon []] =
        (((s.act zx l (.report r)).act zx l (.daemon [])).act zx l (.daemon [])) := rfl
    generalize s.act zx l (.report r) = s1 at q1 j1 c1 e1
    obtain ⟨tail, q2, c2, t2⟩ := phase_select (zx := zx) (l := l) j1 q1 (by simp)
    obtain rfl := t2 (by
      rw [c1]
      exact fun c hc => ⟨(hup' c hc).1, (hup' c hc).2.1⟩)
    have j2 := j1.act l (.daemon [])
    generalize s1.act zx l (.daemon []) = s2 at q2 c2 j2 e1
    obtain ⟨text, ht, q3, c3⟩ := phase_handle (zx := zx) (l := l) j2 q2
    have j3 := j2.act l (.daemon [])
    generalize s2.act zx l (.daemon []) = s3 at q3 c3 j3 e1
    have c3' : s3.conns = s.conns := c3.trans (c2.trans c1)
    by_cases hb : l.buffer < u + text.length
    · -- the client's buffer is full
      have hnd' := List.nodup_append.1 (hT ▸ hnd)
      obtain ⟨q4, c4⟩ := phase_writes (zx := zx) (l := l) (fds := pre) (rest := fd :: post) j3 hnd'.1 (hT ▸ q3) (by
        rw [c3', ht]
        intro c hc hcp
        have hne : c.fd ≠ fd := fun he => hnd'.2.2 _ hcp _ List.mem_cons_self he
        obtain ⟨h1, h2, -, h3⟩ := hup' c hc
        exact ⟨by rw [h3 hne]; omega, by simp [h2]⟩)
      have j4 := inv_acts j3 l (List.replicate pre.length (.daemon []))
      have e4 : s.acts zx l ([.report r, .daemon [], .daemon []] ++ List.replicate pre.length (.daemon [])) =
          s3.acts zx l (List.replicate pre.length (.daemon [])) := by rw [acts_append, e1]
      generalize s3.acts zx l (List.replicate pre.length (.daemon [])) = s4 at q4 c4 j4 e4
      obtain ⟨c, hc, hcf⟩ := (j4.writing _ _ q4.writing).2 fd List.mem_cons_self
      have hcu : c.peer ≠ .reset ∧ c.unread = u := by
        rw [c4, c3'] at hc
        obtain ⟨c0, hc0, rfl⟩ := List.mem_map.1 hc
        have hfd0 : c0.fd = fd := by
          rw [← hcf]
          split_ifs <;> rfl
        rw [if_neg (fun hm => hnd'.2.2 _ hm _ List.mem_cons_self hfd0)]
        obtain ⟨h1, h2, h3, -⟩ := hup' c0 hc0
        exact ⟨by simp [h2], h3 hfd0⟩
      refine ⟨[.report r, .daemon [], .daemon []] ++ List.replicate pre.length (.daemon []), ?_, ?_⟩
      · intro a ha
        simp only [List.mem_append, List.mem_cons, List.not_mem_nil, or_false, List.mem_replicate] at ha
        rcases ha with (rfl | rfl | rfl) | ⟨-, rfl⟩
        · exact .inl rfl
        · exact .inr (.inl rfl)
        · exact .inr (.inl rfl)
        · exact .inr (.inl rfl)
      · rw [e4]
        refine ⟨q4.stopped, ⟨text, fd, post, q4.writing, c, hc, hcf, hcu.1, by rw [hcu.2]; exact hb⟩, ?_⟩
        exact fun as'' ha => blocked_acts l j4 q4.stopped q4.writing hc hcf hcu.1 (by rw [hcu.2]; exact hb) ha
    · -- the client's buffer takes the line
      obtain ⟨q4, c4⟩ := phase_writes (zx := zx) (l := l) (fds := T) (rest := []) j3 hnd (by simpa using q3) (by
        rw [c3']
        intro c hc hcp
        obtain ⟨h1, h2, h3, h4⟩ := hup' c hc
        by_cases hne : c.fd = fd
        · exact ⟨by rw [h3 hne]; omega, by simp [h2]⟩
        · exact ⟨by rw [h4 hne, ht]; omega, by simp [h2]⟩)
      have j4 := inv_acts j3 l (List.replicate T.length (.daemon []))
      have e4 : s.acts zx l ([.report r, .daemon [], .daemon []] ++ List.replicate T.length (.daemon [])) =
          s3.acts zx l (List.replicate T.length (.daemon [])) := by rw [acts_append, e1]
      generalize s3.acts zx l (List.replicate T.length (.daemon [])) = s4 at q4 c4 j4 e4
      obtain ⟨q5, c5⟩ := phase_end (zx := zx) (l := l) q4
      have j5 := j4.act l (.daemon [])
      have e5 : s.acts zx l ([.report r, .daemon [], .daemon []] ++ List.replicate T.length (.daemon []) ++ [.daemon []]) =
          s4.act zx l (.daemon []) := by
        rw [acts_append, e4]
        rfl
      generalize s4.act zx l (.daemon []) = s5 at q5 c5 j5 e5
      obtain ⟨q6, c6⟩ := reads l j5 q5 (fd := fd) (T.filter fun g => decide (g ≠ fd)) (by simp) (u := u + text.length) (by
        rw [c5, c4, c3']
        intro c hc
        obtain ⟨c0, hc0, rfl⟩ := List.mem_map.1 hc
        obtain ⟨h1, h2, h3, h4⟩ := hup' c0 hc0
        by_cases hcT : c0.fd ∈ T
        · rw [if_pos hcT]
          refine ⟨h1, h2, fun he => ?_, fun hne => ⟨?_, fun hm => ?_⟩⟩
          · rw [← h3 he]
            rfl
          · show c0.unread + text.length ≤ _
            rw [h4 hne, ht]
            omega
          · exact absurd (List.mem_filter.2 ⟨hcT, by simpa using (show ¬ c0.fd = fd from hne)⟩) hm
        · rw [if_neg hcT]
          refine ⟨h1, h2, fun he => absurd (he ▸ hfd) hcT, fun hne => ⟨?_, fun _ => h4 hne⟩⟩
          rw [h4 hne]
          omega)
      have j6 := inv_acts j5 l ((T.filter fun g => decide (g ≠ fd)).map fun g => .read g l.buffer)
      have e6 : s.acts zx l ([.report r, .daemon [], .daemon []] ++ List.replicate T.length (.daemon []) ++ [.daemon []] ++
          (T.filter fun g => decide (g ≠ fd)).map fun g => .read g l.buffer) =
          s5.acts zx l ((T.filter fun g => decide (g ≠ fd)).map fun g => .read g l.buffer) := by rw [acts_append, e5]
      generalize s5.acts zx l ((T.filter fun g => decide (g ≠ fd)).map fun g => .read g l.buffer) = s6 at q6 c6 j6 e6
      obtain ⟨as', a1, a2⟩ := ih (l.buffer + 1 - (u + text.length)) (by omega) s6 _ _ j6 q6 (u + text.length) c6 rfl
      refine ⟨([.report r, .daemon [], .daemon []] ++ List.replicate T.length (.daemon []) ++ [.daemon []] ++
          (T.filter fun g => decide (g ≠ fd)).map fun g => .read g l.buffer) ++ as', ?_, ?_⟩
      · intro a ha
        simp only [List.mem_append, List.mem_cons, List.not_mem_nil, or_false, List.mem_replicate, List.mem_map,
          List.mem_filter, decide_eq_true_eq] at ha
        rcases ha with ((((rfl | rfl | rfl) | ⟨-, rfl⟩) | rfl) | ⟨g, ⟨-, hg⟩, rfl⟩) | ha
        · exact .inl rfl
        · exact .inr (.inl rfl)
        · exact .inr (.inl rfl)
        · exact .inr (.inl rfl)
        · exact .inr (.inl rfl)
        · exact .inr (.inr ⟨g, hg, rfl⟩)
        · exact a1 a ha
      · rw [acts_append, e6]
        exact a2

/-! ### Examples -/

instance (s : Sys) : Decidable (Idle s) :=
  inferInstanceAs (Decidable (s.writing = none ∧ s.todo = [] ∧ s.backlog = 0 ∧ s.reports = [] ∧ s.unplugged = false ∧
    ∀ c ∈ s.conns, c.fd < 1024 → c.input = [] ∧ c.peer = .up))

/-- Two clients connect. -/
def exTwo : List Act := [.connect, .daemon [], .daemon [], .connect, .daemon [], .daemon []]

/-- Few descriptors and a small buffer. -/
def exLimits : Limits := ⟨9, 300⟩

/-- A packet buffer. -/
def exPacket : List Byte := List.replicate 56 0

example := c75_history none (packet := exPacket) rfl exLimits
  (exTwo ++ [.send 5 "0102\n".toList, .report [7], .daemon [], .daemon [], .close 6, .daemon [], .daemon [], .daemon [],
    .daemon ['x']])

example : ((Sys.start exPacket).acts none exLimits
    (exTwo ++ [.send 5 "0102\n".toList, .report [7], .daemon [], .daemon [], .close 6, .daemon [], .daemon [], .daemon [],
      .daemon ['x'], .daemon [], .daemon []])).trace =
    [.accept 5, .accept 6, .report [7], .input 5 (some "0102\n".toList) ['x'], .input 6 (some []) []] := by decide +kernel

example := c74_stops none (packet := exPacket) rfl exLimits (exTwo ++ [.report [7], .daemon []]) []
  (by decide +kernel)

example := (c74_partial none (packet := exPacket) rfl exLimits (exTwo ++ [.report [7], .daemon [], .daemon []]) (by decide)
  (fun as' h => by
    rw [← List.mem_inits] at h
    revert as'
    decide +kernel) (fun as' h => by
    rw [← List.mem_inits] at h
    revert as'
    decide +kernel)).1

example : ∃ n m, ((Sys.start exPacket).acts none exLimits (exTwo ++ ([.report [1, 2], .daemon [], .daemon [], .close 5] ++
    List.replicate n (.daemon []) ++ [.reset 5, .report [3]] ++ List.replicate m (.daemon [])))).stopped = some .killed :=
  c74_closed_refuted none rfl exLimits exTwo (by decide +kernel) (by decide +kernel) (by decide +kernel) (by decide +kernel) _ _

example : ((Sys.start exPacket).acts none exLimits (exTwo ++ ([.report [1, 2], .daemon [], .daemon [], .close 5] ++
    List.replicate 3 (.daemon []) ++ [.reset 5, .report [3]] ++ List.replicate 3 (.daemon [])))).stopped = some .killed := by
  decide +kernel

example := c74_connections_refuted none (packet := exPacket) rfl exLimits exTwo (by decide +kernel) (by decide +kernel)
  (by decide +kernel)

example := c74_blocked_refuted none (packet := exPacket) rfl exLimits exTwo (by decide +kernel) (by decide +kernel)
  (fd := 6) (by decide +kernel) (by decide +kernel) [1, 2, 3] (by decide)

end Knx
