import Verif.Spec.DaemonProgress
import Verif.Props.DaemonStream

/-! # The daemon goes on: C78 -/

namespace Knx
open Spec Daemon Daemon.Sys

section
variable {zx : Option Byte} {l : Limits} {packet : List Byte} {s : Sys} {made : List (List Byte)} {asked : Nat}

/-! ## It gets everything done -/

/-- What there is to read. -/
def unreadWork (s : Sys) : Nat := (s.conns.map fun c => c.input.length + 1).sum

/-- The steps left to hand out a report. -/
def writeWork (s : Sys) : Nat :=
  match s.writing with
  | none => 0
  | some (_, fds) => fds.length + 1

/-- A bound for the steps the daemon can do by itself. -/
def work (s : Sys) : Nat :=
  2 * (3 * s.backlog + 67 * s.reports.length + unreadWork s) + writeWork s + if s.todo = [] then 1 else 0

theorem todo_le (todo : List Nat) : (if todo = [] then 1 else 0) ≤ 1 := by split_ifs <;> omega

theorem sum_map_congr {α : Type} {f g : α → Nat} {l : List α} (h : ∀ x ∈ l, f x = g x) : (l.map f).sum = (l.map g).sum := by
  rw [List.map_congr_left h]

theorem sum_filter_lt {α : Type} {f : α → Nat} {p : α → Bool} {l : List α} {x : α} (hx : x ∈ l) (hp : p x = false) (hf : 0 < f x) :
    ((l.filter p).map f).sum < (l.map f).sum := by
  induction l with
  | nil => cases hx
  | cons y l ih =>
    have hle : ((l.filter p).map f).sum ≤ (l.map f).sum := by
      clear ih hx
      induction l with
      | nil => simp
      | cons z l ih =>
        rw [List.filter_cons]
        split_ifs <;> simp <;> omega
    rw [List.filter_cons]
    rcases List.mem_cons.1 hx with rfl | hx
    · rw [if_neg (by simp [hp])]
      simp
      omega
    · have := ih hx
      split_ifs <;> simp <;> omega

theorem sum_map_lt {α : Type} {f g : α → Nat} {l : List α} {x : α} (hx : x ∈ l) (hle : ∀ y ∈ l, f y ≤ g y) (hlt : f x < g x) :
    (l.map f).sum < (l.map g).sum := by
  exact List.sum_lt_sum f g hle ⟨x, hx, hlt⟩

theorem work_decreases (h : Inv zx packet s made asked) {stale : List Char} {s' : Sys}
    (hd : s.daemon zx l stale = some s') : s'.stopped ≠ none ∨ work s' < work s := by
  rcases daemon_cases h hd with ⟨x, todo⟩ | ⟨text, hw⟩ | ⟨text, f, fds, g, hw, hg⟩ | ⟨todo, hw, ht, hn, he⟩ |
    ⟨rest, f, w, hw, ht, hf⟩ | ⟨rest, data, reports, hw, ht, hr⟩ | ⟨rest, c, hw, ht, hc, hin⟩ |
    ⟨rest, c, x, hw, ht, hc, hin, hpe, hx⟩
  · exact .inl nofun
  · right
    simp only [work, unreadWork, writeWork, hw, List.length_nil]
    omega
  · right
    have hsum : ((s.conns.map g).map fun c => c.input.length + 1).sum = (s.conns.map fun c => c.input.length + 1).sum := by
      rw [List.map_map]
      exact sum_map_congr fun c _ => by simp [(hg c).2.1]
    simp only [work, unreadWork, writeWork, hw, List.length_cons, hsum]
    omega
  · right
    simp only [work, unreadWork, writeWork, hw, ht, if_true, if_neg hn]
    omega
  · right
    have hb := h.todoSock (by simp [ht])
    have := todo_le rest
    simp only [work, unreadWork, writeWork, hw, ht, List.map_cons, List.sum_cons, List.length_nil]
    omega
  · right
    have := todo_le rest
    have hlen : (inTable s.d).length ≤ 64 := by
      have h1 := h.holds.slots
      have h2 := List.length_filterMap_le id s.d.slots
      unfold inTable
      unfold maxClients at h1
      omega
    simp only [work, unreadWork, writeWork, hw, ht, hr, List.length_cons]
    omega
  · right
    have := todo_le rest
    have hsum : ((s.conns.map fun x => if x.fd = c.fd then { x with input := x.input.drop (packetLen * 2 + 1) } else x).map
        fun c => c.input.length + 1).sum < (s.conns.map fun c => c.input.length + 1).sum := by
      rw [List.map_map]
      refine sum_map_lt hc (fun y _ => ?_) ?_
      · simp only [Function.comp_apply]
        split_ifs
        · simp
        · exact Nat.le_refl _
      · have := List.length_pos_iff.2 hin
        simp only [Function.comp_apply, if_true, List.length_drop]
        omega
    simp only [work, unreadWork, writeWork, hw, ht]
    omega
  · right
    have := todo_le rest
    have hsum : ((s.conns.filter fun y => decide (y.fd ≠ c.fd)).map fun c => c.input.length + 1).sum <
        (s.conns.map fun c => c.input.length + 1).sum := sum_filter_lt hc (by simp) (by simp)
    simp only [work, unreadWork, writeWork, hw, ht]
    omega

theorem rests_any (h : Inv zx packet s made asked) {stale : List Char} (hd : s.daemon zx l stale = none) (stale' : List Char) :
    s.daemon zx l stale' = none := by
  by_cases hs : s.stopped = none
  · exact (waits_iff h l stale' hs).2 ((waits_iff h l stale hs).1 hd)
  · unfold Sys.daemon
    rw [if_pos hs]

theorem rests_acts (hd : ∀ stale, s.daemon zx l stale = none) (stales : List (List Char)) :
    s.acts zx l (stales.map Act.daemon) = s := by
  induction stales with
  | nil => rfl
  | cons a as ih =>
    rw [List.map_cons, acts_cons]
    simp only [Sys.act, hd, Option.getD_none]
    exact ih

theorem comes_to_rest (n : Nat) (h : Inv zx packet s made asked) (hn : work s ≤ n) {stales : List (List Char)}
    (hl : n < stales.length) (stale : List Char) : (s.acts zx l (stales.map Act.daemon)).daemon zx l stale = none := by
  induction n generalizing s made asked stales with
  | zero =>
    rcases stales with _ | ⟨a, as⟩
    · simp at hl
    · rw [List.map_cons, acts_cons]
      rcases hd : s.daemon zx l a with _ | s'
      · simp only [Sys.act, hd, Option.getD_none]
        rw [rests_acts (rests_any h hd)]
        exact rests_any h hd _
      · simp only [Sys.act, hd, Option.getD_some]
        rcases work_decreases h hd with h1 | h1
        · have hr : ∀ stale, s'.daemon zx l stale = none := fun stale => by
            unfold Sys.daemon
            rw [if_pos h1]
          rw [rests_acts hr]
          exact hr _
        · omega
  | succ n ih =>
    rcases stales with _ | ⟨a, as⟩
    · simp at hl
    · rw [List.map_cons, acts_cons]
      rcases hd : s.daemon zx l a with _ | s'
      · simp only [Sys.act, hd, Option.getD_none]
        rw [rests_acts (rests_any h hd)]
        exact rests_any h hd _
      · simp only [Sys.act, hd, Option.getD_some]
        rcases work_decreases h hd with h1 | h1
        · have hr : ∀ stale, s'.daemon zx l stale = none := fun stale => by
            unfold Sys.daemon
            rw [if_pos h1]
          rw [rests_acts hr]
          exact hr _
        · exact ih (h.daemon l a hd) (by omega) (by simpa using hl)

end

theorem made_daemon (as : List Act) (stales : List (List Char)) :
    reportsMade (as ++ stales.map Act.daemon) = reportsMade as ∧
    connectsMade (as ++ stales.map Act.daemon) = connectsMade as := by
  induction as with
  | nil =>
    induction stales with
    | nil => exact ⟨rfl, rfl⟩
    | cons a as ih => exact ih
  | cons a as ih => cases a <;> simp_all [reportsMade, connectsMade]

/-- C78: whatever happened before, if nothing else happens the daemon comes to rest after a bounded number of steps: it has
ended, or a client that does not read blocks it, or all connections asked for are accepted, all reports of the device read
and handed out, and everything the clients sent read, as far as their descriptors can be watched. -/
theorem c78_rest (zx : Option Byte) {packet : List Byte} (hp : packet.length = packetLen) (l : Limits) (as : List Act) :
    ∃ n, ∀ stales : List (List Char), n ≤ stales.length →
      (∀ stale, ((Sys.start packet).acts zx l (as ++ stales.map Act.daemon)).daemon zx l stale = none) ∧
      (((Sys.start packet).acts zx l (as ++ stales.map Act.daemon)).stopped ≠ none ∨
        Blocked l ((Sys.start packet).acts zx l (as ++ stales.map Act.daemon)) ∨
        (Idle ((Sys.start packet).acts zx l (as ++ stales.map Act.daemon)) ∧
          reportsSeen ((Sys.start packet).acts zx l (as ++ stales.map Act.daemon)).trace = reportsMade as ∧
          connectsSeen ((Sys.start packet).acts zx l (as ++ stales.map Act.daemon)).trace = connectsMade as)) := by
  refine ⟨work ((Sys.start packet).acts zx l as) + 1, fun stales hn => ?_⟩
  have hi := inv_start zx hp l as
  have hi' := inv_start zx hp l (as ++ stales.map Act.daemon)
  have hr : ∀ stale, ((Sys.start packet).acts zx l (as ++ stales.map Act.daemon)).daemon zx l stale = none := fun stale => by
    rw [acts_append]
    exact comes_to_rest _ hi (Nat.le_refl _) (by omega) stale
  refine ⟨hr, ?_⟩
  by_cases hs : ((Sys.start packet).acts zx l (as ++ stales.map Act.daemon)).stopped = none
  · rcases (waits_iff hi' l [] hs).1 (hr []) with h1 | h1
    · exact .inr (.inl h1)
    · refine .inr (.inr ⟨h1, ?_, ?_⟩)
      · rw [← (made_daemon as stales).1, ← hi'.made, h1.2.2.2.1, List.append_nil]
      · rw [← (made_daemon as stales).2, ← hi'.asked, h1.2.2.1, Nat.add_zero]
  · exact .inl hs

/-! ## It lets nobody wait -/

section
variable {zx : Option Byte} {l : Limits} {packet : List Byte} {s : Sys} {made : List (List Byte)} {asked : Nat}

theorem waits_ready (h : Inv zx packet s made asked) {i : Nat} (hw : Waits s i) : s.ready i = true := by
  unfold Sys.ready
  have hsock : ∀ c ∈ s.conns, 4 < c.fd := fun c hc => (h.high c hc).1
  rcases hw with ⟨rfl, hw⟩ | ⟨rfl, hw⟩ | ⟨c, hc, rfl, hw⟩
  · simp [sockFd, hw]
  · simp [sockFd, deviceFd, hw]
  · have := hsock c hc
    rw [if_neg (by unfold sockFd; omega), if_neg (by unfold deviceFd; omega)]
    simp only [Bool.and_eq_true, decide_eq_true_eq, List.any_eq_true, Conn.ready]
    refine ⟨?_, c, hc, rfl, hw⟩
    rw [← h.fds]
    exact List.mem_map_of_mem hc

theorem not_served_read {fd : Nat} {es : List Event} (h : ∀ e ∈ es, ¬ Serves fd e) : Kept fd es ∧ textRead fd es = [] := by
  refine ⟨fun st => ⟨fun hm => h _ hm rfl, fun hm => h _ hm rfl⟩, ?_⟩
  induction es with
  | nil => rfl
  | cons e es ih =>
    have h1 := ih fun e he => h e (by simp [he])
    have h2 := h e (by simp)
    rcases e with _ | _ | ⟨f, _ | text, st⟩
    case cons.input.some => rw [textRead, if_neg fun hf => h2 hf.symm, h1]
    all_goals exact h1

/-- What waits at a descriptor goes on waiting until it is dealt with. -/
theorem waits_act (h : Inv zx packet s made asked) (l : Limits) (a : Act) {i : Nat} (hw : Waits s i) {es : List Event}
    (he : (s.act zx l a).trace = s.trace ++ es) (hn : ∀ e ∈ es, ¬ Serves i e) : Waits (s.act zx l a) i := by
  rcases hw with ⟨rfl, hw⟩ | ⟨rfl, hw⟩ | ⟨c, hc, rfl, hw⟩
  · refine .inl ⟨rfl, ?_⟩
    rcases a with _ | _ | _ | _ | _ | _ | _ | stale <;> try exact hw
    · exact Nat.succ_pos _
    · rcases hd : s.daemon zx l stale with _ | s'
      · simpa [Sys.act, hd] using hw
      · simp only [Sys.act, hd, Option.getD_some] at he ⊢
        rcases daemon_cases h hd with ⟨x, todo⟩ | ⟨text, hw'⟩ | ⟨text, f, fds, g, hw', hg⟩ | ⟨todo, hw', ht, hn, he⟩ |
          ⟨rest, f, w, hw', ht, hf⟩ | ⟨rest, data, reports, hw', ht, hr⟩ | ⟨rest, c, hw', ht, hc, hin⟩ |
          ⟨rest, c, x, hw', ht, hc, hin, hpe, hx⟩ <;> try exact hw
        rw [List.append_cancel_left_eq] at he
        subst he
        exact absurd rfl (hn _ (List.mem_singleton_self _))
  · refine .inr (.inl ⟨rfl, ?_⟩)
    rcases a with _ | _ | _ | _ | _ | _ | _ | stale <;> try exact hw
    · simp [Sys.act]
    · rcases hd : s.daemon zx l stale with _ | s'
      · simpa [Sys.act, hd] using hw
      · simp only [Sys.act, hd, Option.getD_some] at he ⊢
        rcases daemon_cases h hd with ⟨x, todo⟩ | ⟨text, hw'⟩ | ⟨text, f, fds, g, hw', hg⟩ | ⟨todo, hw', ht, hn, he⟩ |
          ⟨rest, f, w, hw', ht, hf⟩ | ⟨rest, data, reports, hw', ht, hr⟩ | ⟨rest, c, hw', ht, hc, hin⟩ |
          ⟨rest, c, x, hw', ht, hc, hin, hpe, hx⟩ <;> try exact hw
        rw [List.append_cancel_left_eq] at he
        subst he
        exact absurd rfl (hn _ (List.mem_singleton_self _))
  · refine .inr (.inr ?_)
    obtain ⟨es', h1, h2⟩ := stream_act h l a
    rw [he, List.append_cancel_left_eq] at h1
    subst h1
    obtain ⟨hk, hr⟩ := not_served_read hn
    obtain ⟨c', hc', h3, h4, h5⟩ := h2 c hc hk
    refine ⟨c', hc', h3, ?_⟩
    rw [hr, List.nil_append] at h4
    rcases hw with hw | hw
    · left
      rw [h4]
      simp [hw]
    · right
      rw [decide_eq_false hw] at h5
      have h6 : upAfter c.fd false a = false := by cases a <;> rfl
      rw [h6] at h5
      exact of_decide_eq_false h5

/-- The steps a list of descriptors may take: each takes one, and the device also the handing out of a report. -/
def roundWork : List Nat → Nat
  | [] => 0
  | i :: rest => (if i = deviceFd then 67 else 1) + roundWork rest

theorem length_le_of_lt {todo : List Nat} (h : todo.Nodup) {n : Nat} (hlt : ∀ i ∈ todo, i < n) : todo.length ≤ n := by
  have := (h.subperm (l₂ := List.range n) fun i hi => List.mem_range.2 (hlt i hi)).length_le
  simpa using this

theorem roundWork_le {todo : List Nat} (h : todo.Pairwise (· < ·)) (hlt : ∀ i ∈ todo, i < fdSetSize) :
    roundWork todo ≤ fdSetSize + 66 := by
  have h1 : roundWork todo = todo.length + 66 * todo.count deviceFd := by
    clear h hlt
    induction todo with
    | nil => rfl
    | cons i rest ih =>
      rw [roundWork, ih, List.count_cons, List.length_cons]
      by_cases hi : i = deviceFd
      · simp [hi]
        omega
      · simp [hi]
        omega
  have hnd : todo.Nodup := h.imp fun hab => Nat.ne_of_lt hab
  have h2 := List.nodup_iff_count_le_one.1 hnd deviceFd
  have h3 := length_le_of_lt hnd hlt
  generalize fdSetSize = n at h3 ⊢
  omega

theorem roundWork_sublist {l₁ l₂ : List Nat} (h : l₁.Sublist l₂) : roundWork l₁ ≤ roundWork l₂ := by
  induction h with
  | slnil => exact Nat.le_refl _
  | cons a _ ih => exact Nat.le_trans ih (by simp [roundWork])
  | cons_cons a _ ih => simpa [roundWork] using ih

/-- A bound for the steps until a waiting descriptor is dealt with. -/
def waitWork (s : Sys) (i : Nat) : Nat :=
  writeWork s + if i ∈ s.todo then roundWork (s.todo.takeWhile fun j => decide (j ≠ i)) + 1
    else roundWork s.todo + fdSetSize + 68

theorem mem_filter_range {p : Nat → Bool} {n i : Nat} (h : i ∈ (List.range n).filter p) : i < n :=
  List.mem_range.1 (List.mem_filter.1 h).1

theorem todo_lt (zx : Option Byte) {packet : List Byte} (hp : packet.length = packetLen) (l : Limits) (as : List Act) :
    ∀ i ∈ ((Sys.start packet).acts zx l as).todo, i < fdSetSize := by
  induction as using List.reverseRecOn with
  | nil => exact nofun
  | append_singleton as a ih =>
    rw [acts_append, acts_cons]
    have hi := inv_start zx hp l as
    generalize (Sys.start packet).acts zx l as = s at ih hi ⊢
    change ∀ i ∈ (s.act zx l a).todo, i < fdSetSize
    rcases a with _ | _ | _ | _ | _ | _ | _ | stale <;> try exact ih
    rcases hd : s.daemon zx l stale with _ | s'
    · simpa [Sys.act, hd] using ih
    · simp only [Sys.act, hd, Option.getD_some]
      rcases daemon_cases hi hd with ⟨x, todo, ht⟩ | ⟨text, hw⟩ | ⟨text, f, fds, g, hw, hg⟩ | ⟨todo, hw, ht, hn, he⟩ |
        ⟨rest, f, w, hw, ht, hf⟩ | ⟨rest, data, reports, hw, ht, hr⟩ | ⟨rest, c, hw, ht, hc, hin⟩ |
        ⟨rest, c, x, hw, ht, hc, hin, hpe, hx⟩
      case select =>
        intro i hi
        change i ∈ todo at hi
        rw [he] at hi
        exact mem_filter_range (n := fdSetSize) (p := s.ready) hi
      case stop => exact fun i hi => ih i (ht.subset hi)
      case written => exact ih
      case write => exact ih
      all_goals exact fun i hi => ih i (by rw [ht]; exact List.mem_cons_of_mem _ hi)

theorem inTable_le (h : Inv zx packet s made asked) : (inTable s.d).length ≤ 64 := by
  have h1 := h.holds.slots
  have h2 := List.length_filterMap_le id s.d.slots
  unfold inTable
  unfold maxClients at h1
  omega

theorem writing_le (zx : Option Byte) {packet : List Byte} (hp : packet.length = packetLen) (l : Limits) (as : List Act) :
    ∀ text fds, ((Sys.start packet).acts zx l as).writing = some (text, fds) → fds.length ≤ 64 := by
  induction as using List.reverseRecOn with
  | nil => exact nofun
  | append_singleton as a ih =>
    rw [acts_append, acts_cons]
    have hi := inv_start zx hp l as
    generalize (Sys.start packet).acts zx l as = s at ih hi ⊢
    change ∀ text fds, (s.act zx l a).writing = some (text, fds) → fds.length ≤ 64
    rcases a with _ | _ | _ | _ | _ | _ | _ | stale <;> try exact ih
    rcases hd : s.daemon zx l stale with _ | s'
    · simpa [Sys.act, hd] using ih
    · simp only [Sys.act, hd, Option.getD_some]
      rcases daemon_cases hi hd with ⟨x, todo, ht⟩ | ⟨text, hw⟩ | ⟨text, f, fds, g, hw, hg⟩ | ⟨todo, hw, ht, hn, he⟩ |
        ⟨rest, f, w, hw, ht, hf⟩ | ⟨rest, data, reports, hw, ht, hr⟩ | ⟨rest, c, hw, ht, hc, hin⟩ |
        ⟨rest, c, x, hw, ht, hc, hin, hpe, hx⟩
      case written => exact nofun
      case write =>
        rintro _ _ ⟨⟩
        exact Nat.le_of_succ_le (ih _ _ hw)
      case report =>
        rintro _ _ ⟨⟩
        exact inTable_le hi
      all_goals exact ih

/-- Dealing with the next descriptor. -/
theorem waitWork_pop {s s' : Sys} {i j : Nat} {rest : List Nat} (hw : s.writing = none) (ht : s.todo = j :: rest)
    (ht' : s'.todo = rest) (hij : i ≠ j) (hwr : writeWork s' < if j = deviceFd then 67 else 1) :
    waitWork s' i < waitWork s i := by
  have h0 : writeWork s = 0 := by simp [writeWork, hw]
  unfold waitWork
  rw [ht, ht', h0]
  by_cases hm : i ∈ rest
  · rw [if_pos hm, if_pos (List.mem_cons_of_mem _ hm), List.takeWhile_cons, if_pos (by simpa using hij.symm), roundWork]
    omega
  · rw [if_neg hm, if_neg (by simp [hij, hm]), roundWork]
    omega

/-- Each step of the daemon brings a waiting descriptor nearer to its turn. -/
theorem waitWork_decreases (h : Inv zx packet s made asked) {i : Nat} (hi : i < fdSetSize)
    (hw : Waits s i) {stale : List Char} {s' : Sys} (hd : s.daemon zx l stale = some s') :
    s'.stopped ≠ none ∨ (∃ e, s'.trace = s.trace ++ [e] ∧ Serves i e) ∨ waitWork s' i < waitWork s i := by
  rcases daemon_cases h hd with ⟨x, todo, ht⟩ | ⟨text, hw'⟩ | ⟨text, f, fds, g, hw', hg⟩ | ⟨todo, hw', ht, hn, he⟩ |
    ⟨rest, f, w, hw', ht, hf⟩ | ⟨rest, data, reports, hw', ht, hr⟩ | ⟨rest, c, hw', ht, hc, hin⟩ |
    ⟨rest, c, x, hw', ht, hc, hin, hpe, hx⟩
  · exact .inl nofun
  · right; right
    simp only [waitWork, writeWork, hw', List.length_nil]
    omega
  · right; right
    simp only [waitWork, writeWork, hw', List.length_cons]
    omega
  · right; right
    have hm : i ∈ todo := by
      rw [he]
      exact List.mem_filter.2 ⟨List.mem_range.2 hi, waits_ready h hw⟩
    have hle : roundWork todo ≤ fdSetSize + 66 := by
      rw [he]
      refine roundWork_le (List.Pairwise.filter _ List.pairwise_lt_range) fun j hj => ?_
      exact List.mem_range.1 (List.mem_filter.1 hj).1
    have hle' := roundWork_sublist (List.takeWhile_sublist (fun j => decide (j ≠ i)) (l := todo))
    simp only [waitWork, writeWork, hw', ht, if_pos hm, List.not_mem_nil, if_false, roundWork]
    omega
  · right
    by_cases hij : i = sockFd
    · exact .inl ⟨_, rfl, hij⟩
    · exact .inr (waitWork_pop hw' ht rfl hij (by simp [writeWork, hw', sockFd, deviceFd]))
  · right
    by_cases hij : i = deviceFd
    · exact .inl ⟨_, rfl, hij⟩
    · refine .inr (waitWork_pop hw' ht rfl hij ?_)
      have := inTable_le h
      rw [if_pos rfl]
      simp only [writeWork]
      omega
  · right
    by_cases hij : i = c.fd
    · exact .inl ⟨_, rfl, hij⟩
    · refine .inr (waitWork_pop hw' ht rfl hij ?_)
      have := (h.high c hc).1
      rw [if_neg (by omega)]
      simp [writeWork, hw']
  · right
    by_cases hij : i = c.fd
    · exact .inl ⟨_, rfl, hij⟩
    · refine .inr (waitWork_pop hw' ht rfl hij ?_)
      have := (h.high c hc).1
      rw [if_neg (by omega)]
      simp [writeWork, hw']

theorem not_idle {i : Nat} (hi : i < fdSetSize) (hw : Waits s i) : ¬ Idle s := by
  rintro ⟨-, -, h1, h2, -, h3⟩
  rcases hw with ⟨rfl, hw⟩ | ⟨rfl, hw⟩ | ⟨c, hc, rfl, hw⟩
  · omega
  · exact hw h2
  · obtain ⟨h4, h5⟩ := h3 c hc hi
    rcases hw with hw | hw
    · exact hw h4
    · exact hw h5

/-- Other actions neither change the descriptors found ready nor the report being handed out. -/
theorem waitWork_act (zx : Option Byte) (l : Limits) (s : Sys) (a : Act) (ha : ∀ stale, a ≠ .daemon stale) (i : Nat) :
    waitWork (s.act zx l a) i = waitWork s i ∧ (s.act zx l a).trace = s.trace := by
  rcases a with _ | _ | _ | _ | _ | _ | _ | stale <;> try exact ⟨rfl, rfl⟩
  exact absurd rfl (ha stale)

theorem served (h : Inv zx packet s made asked) {i : Nat} (hi : i < fdSetSize) (hw : Waits s i) {bs : List Act}
    (hrun : Running zx l s bs) (hn : waitWork s i ≤ steps bs) :
    ∃ es, (s.acts zx l bs).trace = s.trace ++ es ∧ ∃ e ∈ es, Serves i e := by
  induction bs generalizing s made asked with
  | nil =>
    have : 0 < waitWork s i := by
      unfold waitWork
      split_ifs <;> omega
    simp only [steps] at hn
    omega
  | cons a bs ih =>
    have hi' := inv_acts h l [a]
    change Inv zx packet (s.act zx l a) _ _ at hi'
    have hrun' : Running zx l (s.act zx l a) bs := fun bs' hb => by
      have := hrun (a :: bs') (List.cons_prefix_cons.2 ⟨rfl, hb⟩)
      rwa [acts_cons] at this
    have hend : (∃ e es, (s.act zx l a).trace = s.trace ++ es ∧ e ∈ es ∧ Serves i e) ∨
        (∃ es, (s.act zx l a).trace = s.trace ++ es ∧ (∀ e ∈ es, ¬ Serves i e)) := by
      obtain ⟨es, h1, -⟩ := stream_act h l a
      by_cases he : ∃ e ∈ es, Serves i e
      · obtain ⟨e, h2, h3⟩ := he
        exact .inl ⟨e, es, h1, h2, h3⟩
      · exact .inr ⟨es, h1, fun e h2 h3 => he ⟨e, h2, h3⟩⟩
    rw [acts_cons]
    obtain ⟨fs, hfs, -⟩ := stream_acts hi' l bs
    rcases hend with ⟨e, es, h1, h2, h3⟩ | ⟨es, h1, h2⟩
    · rw [h1, List.append_assoc] at hfs
      exact ⟨es ++ fs, hfs, e, by simp [h2], h3⟩
    · have hw' := waits_act h l a hw h1 h2
      have hn' : waitWork (s.act zx l a) i ≤ steps bs := by
        by_cases ha : ∃ stale, a = .daemon stale
        · obtain ⟨stale, rfl⟩ := ha
          simp only [steps] at hn
          obtain ⟨hs, hb⟩ := hrun [] List.nil_prefix
          obtain ⟨hs1, -⟩ := hrun [.daemon stale] (List.cons_prefix_cons.2 ⟨rfl, List.nil_prefix⟩)
          rcases hd : s.daemon zx l stale with _ | s'
          · rcases (waits_iff h l stale hs).1 hd with h3 | h3
            · exact absurd h3 hb
            · exact absurd h3 (not_idle hi hw)
          · have hs2 : s.act zx l (.daemon stale) = s' := by simp [Sys.act, hd]
            change (s.act zx l (.daemon stale)).stopped = none at hs1
            rw [hs2] at hs1 h1 ⊢
            rcases waitWork_decreases h hi hw hd with h3 | ⟨e, h3, h4⟩ | h3
            · exact absurd hs1 h3
            · rw [h1, List.append_cancel_left_eq] at h3
              exact absurd h4 (h2 e (by rw [h3]; simp))
            · omega
        · have h3 := (waitWork_act zx l s a (fun stale h => ha ⟨stale, h⟩) i).1
          rw [h3]
          have h4 : steps (a :: bs) = steps bs := by
            cases a <;> first | rfl | exact absurd ⟨_, rfl⟩ ha
          omega
      obtain ⟨gs, h3, e, h4, h5⟩ := ih hi' hw' hrun' hn'
      rw [h1, List.append_assoc] at h3
      exact ⟨es ++ gs, h3, e, by simp [h4], h5⟩

end

/-- C78: as long as the daemon neither ends nor is blocked, whatever waits at a descriptor that can be watched is dealt with
within 2247 steps of the daemon, whatever else happens meanwhile. -/
theorem c78_fair (zx : Option Byte) {packet : List Byte} (hp : packet.length = packetLen) (l : Limits) (as bs : List Act)
    {i : Nat} (hi : i < 1024) (hw : Waits ((Sys.start packet).acts zx l as) i)
    (hrun : Running zx l ((Sys.start packet).acts zx l as) bs) (hn : 2247 ≤ steps bs) :
    ∃ es, ((Sys.start packet).acts zx l (as ++ bs)).trace = ((Sys.start packet).acts zx l as).trace ++ es ∧
      ∃ e ∈ es, Serves i e := by
  rw [acts_append]
  have h := inv_start zx hp l as
  refine served h hi hw hrun (Nat.le_trans ?_ hn)
  have h1 := roundWork_le h.todo (todo_lt zx hp l as)
  have h4 := writing_le zx hp l as
  generalize (Sys.start packet).acts zx l as = s at h h1 h4
  have h2 := roundWork_sublist (List.takeWhile_sublist (fun j => decide (j ≠ i)) (l := s.todo))
  have h3 : writeWork s ≤ 65 := by
    unfold writeWork
    rcases hwr : s.writing with _ | ⟨text, fds⟩
    · simp
    · exact Nat.succ_le_succ (h4 text fds hwr)
  unfold waitWork
  have h5 : fdSetSize ≤ 1024 := Nat.le_refl _
  generalize fdSetSize = n at h1 h5 ⊢
  split_ifs <;> omega

/-- Whether the daemon is blocked, as a computation. -/
def blocked (l : Limits) (s : Sys) : Bool :=
  match s.writing with
  | some (text, fd :: _) => s.conns.any fun c => decide (c.fd = fd ∧ c.peer ≠ .reset ∧ l.buffer < c.unread + text.length)
  | _ => false

theorem blocked_iff (l : Limits) (s : Sys) : Blocked l s ↔ blocked l s = true := by
  unfold Blocked blocked
  rcases s.writing with _ | ⟨text, _ | ⟨fd, fds⟩⟩
  · simp
  · simp
  · simp only [Option.some.injEq, Prod.mk.injEq, List.any_eq_true, decide_eq_true_eq]
    constructor
    · rintro ⟨_, _, _, ⟨rfl, ⟨⟩⟩, h⟩
      exact h
    · exact fun h => ⟨_, _, _, ⟨rfl, rfl⟩, h⟩

instance (l : Limits) (s : Sys) : Decidable (Blocked l s) := decidable_of_iff' _ (blocked_iff l s)

example := c78_rest none (packet := exPacket) rfl exLimits
  (exTwo ++ [.send 5 "0102\n".toList, .report [7], .daemon [], .daemon [], .connect, .close 6])

/-- The client with descriptor 6 has sent something while the one with descriptor 5 has left and a report has come in. -/
def exWaiting : List Act := exTwo ++ [.report [7], .close 5, .send 6 "0102\n".toList]

example : Waits ((Sys.start exPacket).acts none exLimits exWaiting) 6 :=
  .inr (.inr ⟨{ fd := 6, input := "0102\n".toList }, by decide +kernel, rfl, .inl (by decide +kernel)⟩)

theorem exWaiting_rest (n : Nat) : ((Sys.start exPacket).acts none exLimits exWaiting).acts none exLimits
    (List.replicate (7 + n) (.daemon [])) = ((Sys.start exPacket).acts none exLimits exWaiting).acts none exLimits
    (List.replicate 7 (.daemon [])) := by
  rw [List.replicate_add, acts_append]
  have h : ∀ stale, (((Sys.start exPacket).acts none exLimits exWaiting).acts none exLimits
      (List.replicate 7 (.daemon []))).daemon none exLimits stale = none := fun stale =>
    rests_any (inv_acts (inv_start none (packet := exPacket) rfl exLimits exWaiting) exLimits _)
      (stale := []) (by decide +kernel) stale
  have h1 := rests_acts h (List.replicate n [])
  rwa [List.map_replicate] at h1

theorem exWaiting_running : Running none exLimits ((Sys.start exPacket).acts none exLimits exWaiting)
    (List.replicate 2247 (.daemon [])) := by
  intro bs' hb
  obtain ⟨h1, h2⟩ := List.prefix_replicate_iff.1 hb
  rw [h2]
  generalize bs'.length = n
  have key : ∀ k < 8, (((Sys.start exPacket).acts none exLimits exWaiting).acts none exLimits
      (List.replicate k (.daemon []))).stopped = none ∧ ¬ Blocked exLimits (((Sys.start exPacket).acts none exLimits
        exWaiting).acts none exLimits (List.replicate k (.daemon []))) := by decide +kernel
  by_cases hn : n < 8
  · exact key n hn
  · obtain ⟨m, rfl⟩ : ∃ m, n = 7 + m := ⟨n - 7, by omega⟩
    rw [exWaiting_rest]
    exact key 7 (by omega)

example := c78_fair none (packet := exPacket) rfl exLimits exWaiting (List.replicate 2247 (.daemon [])) (i := 6) (by omega)
  (.inr (.inr ⟨{ fd := 6, input := "0102\n".toList }, by decide +kernel, rfl, .inl (by decide +kernel)⟩))
  exWaiting_running (by decide +kernel)

end Knx
