import Verif.Props.DaemonSystem

/-! # C74: what it takes to end the daemon by a signal -/

namespace Knx
open Spec Daemon Daemon.Sys

/-- How many texts were written to the connection with a descriptor. -/
def writesTo (s : Sys) (fd : Nat) : Nat := (s.wrote.filter fun p => decide (p.1 = fd)).length

/-- The client with descriptor `fd` ended its connection in the course of a history, and (if `w`) a text has been written to it
since. -/
def LeftBefore (zx : Option Byte) (l : Limits) (s : Sys) (as : List Act) (fd : Nat) (w : Bool) : Prop :=
  ∃ as1 a as2, as = as1 ++ a :: as2 ∧ (a = .close fd ∨ a = .reset fd) ∧ (∃ c ∈ (s.acts zx l as1).conns, c.fd = fd) ∧
    (w = true → writesTo (s.acts zx l as1) fd < writesTo (s.acts zx l as) fd)

theorem acts_one (zx : Option Byte) (l : Limits) (s : Sys) (as : List Act) (a : Act) :
    s.acts zx l (as ++ [a]) = (s.acts zx l as).act zx l a := by
  rw [acts_append]
  rfl

theorem leftBefore_mono {zx : Option Byte} {l : Limits} {s : Sys} {as : List Act} {fd : Nat} {w : Bool}
    (h : LeftBefore zx l s as fd w) {a : Act} (hw : writesTo (s.acts zx l as) fd ≤ writesTo (s.acts zx l (as ++ [a])) fd) :
    LeftBefore zx l s (as ++ [a]) fd w := by
  obtain ⟨as1, b, as2, h1, h2, h3, h4⟩ := h
  exact ⟨as1, b, as2 ++ [a], by rw [h1]; simp, h2, h3, fun hww => (h4 hww).trans_le hw⟩

/-- The same, and something is written meanwhile. -/
theorem leftBefore_written {zx : Option Byte} {l : Limits} {s : Sys} {as : List Act} {fd : Nat} {w : Bool}
    (h : LeftBefore zx l s as fd w) (hmono : ∀ as1 as2, as = as1 ++ as2 → writesTo (s.acts zx l as1) fd ≤ writesTo (s.acts zx l as) fd)
    {a : Act} (hw : writesTo (s.acts zx l as) fd < writesTo (s.acts zx l (as ++ [a])) fd) :
    LeftBefore zx l s (as ++ [a]) fd true := by
  obtain ⟨as1, b, as2, h1, h2, h3, -⟩ := h
  exact ⟨as1, b, as2 ++ [a], by rw [h1]; simp, h2, h3, fun _ => (hmono as1 _ h1).trans_lt hw⟩

/-- The texts written only become more. -/
theorem wrote_grows (zx : Option Byte) (l : Limits) (s : Sys) (a : Act) : s.wrote <+: (s.act zx l a).wrote := by
  cases a with
  | daemon stale =>
    show s.wrote <+: ((s.daemon zx l stale).getD s).wrote
    unfold Sys.daemon
    split_ifs
    · exact List.prefix_refl _
    split
    · exact List.prefix_refl _
    · unfold writeOne
      simp only
      split
      · exact List.prefix_append _ _
      split
      · split_ifs
        · exact List.prefix_append _ _
        · exact List.prefix_refl _
      · split_ifs
        · exact List.prefix_append _ _
        · exact List.prefix_refl _
      · split_ifs
        · exact List.prefix_append _ _
        · exact List.prefix_refl _
    · split
      · generalize (List.range fdSetSize).filter s.ready = z
        cases z <;> exact List.prefix_refl _
      · simp only
        split_ifs
        · unfold acceptOne
          split <;> exact List.prefix_refl _
        · unfold reportOne
          split_ifs
          · exact List.prefix_refl _
          · split <;> exact List.prefix_refl _
        · unfold inputOne
          split
          · exact List.prefix_refl _
          · simp only
            split_ifs <;> exact List.prefix_refl _
  | _ => exact List.prefix_refl _

theorem writesTo_act (zx : Option Byte) (l : Limits) (s : Sys) (a : Act) (fd : Nat) :
    writesTo s fd ≤ writesTo (s.act zx l a) fd := by
  obtain ⟨t, ht⟩ := wrote_grows zx l s a
  unfold writesTo
  rw [← ht, List.filter_append, List.length_append]
  exact Nat.le_add_right _ _

theorem writesTo_acts (zx : Option Byte) (l : Limits) (s : Sys) (as : List Act) (fd : Nat) :
    writesTo s fd ≤ writesTo (s.acts zx l as) fd := by
  induction as generalizing s with
  | nil => exact le_refl _
  | cons a as ih => exact (writesTo_act zx l s a fd).trans (ih _)

/-- What is known of a connection after a history. -/
def ConnPast (zx : Option Byte) (l : Limits) (s : Sys) (as : List Act) (c : Conn) : Prop :=
  match c.peer with
  | .up => c.poked = false ∧ c.error = false
  | .closed => c.error = false ∧ LeftBefore zx l s as c.fd c.poked
  | .reset => LeftBefore zx l s as c.fd (!c.error)

theorem connPast_mono {zx : Option Byte} {l : Limits} {s : Sys} {as : List Act} {c c' : Conn} (a : Act)
    (h : ConnPast zx l s as c) (h1 : c'.fd = c.fd) (h2 : c'.peer = c.peer) (h3 : c'.poked = c.poked) (h4 : c'.error = c.error) :
    ConnPast zx l s (as ++ [a]) c' := by
  have hw : ∀ fd, writesTo (s.acts zx l as) fd ≤ writesTo (s.acts zx l (as ++ [a])) fd := fun fd => by
    rw [acts_one]; exact writesTo_act _ _ _ _ _
  unfold ConnPast at h ⊢
  rw [h1, h2, h3, h4]
  cases hp : c.peer <;> rw [hp] at h <;> simp only at h ⊢
  · exact h
  · exact ⟨h.1, leftBefore_mono h.2 (hw _)⟩
  · exact leftBefore_mono h (hw _)

theorem killed_past (zx : Option Byte) {packet : List Byte} (hp : packet.length = packetLen) (l : Limits) (as : List Act) :
    (∀ c ∈ ((Sys.start packet).acts zx l as).conns, ConnPast zx l (Sys.start packet) as c) ∧
    (((Sys.start packet).acts zx l as).stopped = some .killed → ∃ fd, LeftBefore zx l (Sys.start packet) as fd true) := by
  induction as using List.reverseRecOn with
  | nil => exact ⟨nofun, nofun⟩
  | append_singleton as a ih =>
    obtain ⟨hc, hk⟩ := ih
    have hi := inv_start zx hp l as
    have hk' : (((Sys.start packet).acts zx l as).stopped = some .killed) →
        ∃ fd, LeftBefore zx l (Sys.start packet) (as ++ [a]) fd true := fun h => by
      obtain ⟨fd, h⟩ := hk h
      exact ⟨fd, leftBefore_mono h (by rw [acts_one]; exact writesTo_act _ _ _ _ _)⟩
    have hmono : ∀ fd as1 as2, as = as1 ++ as2 →
        writesTo ((Sys.start packet).acts zx l as1) fd ≤ writesTo ((Sys.start packet).acts zx l as) fd := fun fd as1 as2 h => by
      rw [h, acts_append]; exact writesTo_acts _ _ _ _ _
    have hone := acts_one zx l (Sys.start packet) as a
    -- a state whose connections keep what is known
    have keep : ∀ {s' : Sys}, (Sys.start packet).acts zx l (as ++ [a]) = s' →
        (∀ c' ∈ s'.conns, (∃ c ∈ ((Sys.start packet).acts zx l as).conns,
          c'.fd = c.fd ∧ c'.peer = c.peer ∧ c'.poked = c.poked ∧ c'.error = c.error) ∨
          (c'.peer = .up ∧ c'.poked = false ∧ c'.error = false)) →
        (s'.stopped = some .killed → ((Sys.start packet).acts zx l as).stopped = some .killed) →
        (∀ c ∈ ((Sys.start packet).acts zx l (as ++ [a])).conns, ConnPast zx l (Sys.start packet) (as ++ [a]) c) ∧
        (((Sys.start packet).acts zx l (as ++ [a])).stopped = some .killed →
          ∃ fd, LeftBefore zx l (Sys.start packet) (as ++ [a]) fd true) := by
      intro s' he h1 h2
      rw [he]
      refine ⟨fun c' hc' => ?_, fun h => hk' (h2 h)⟩
      rcases h1 c' hc' with ⟨c, hcm, e1, e2, e3, e4⟩ | ⟨e1, e2, e3⟩
      · exact connPast_mono a (hc c hcm) e1 e2 e3 e4
      · unfold ConnPast
        rw [e1]
        exact ⟨e2, e3⟩
    have same : ∀ (fd : Nat) (f : Conn → Conn), (∀ c, (f c).fd = c.fd ∧ (f c).peer = c.peer ∧ (f c).poked = c.poked ∧
        (f c).error = c.error) → ∀ (s : Sys), ∀ c' ∈ (s.update fd f).conns, (∃ c ∈ s.conns,
          c'.fd = c.fd ∧ c'.peer = c.peer ∧ c'.poked = c.poked ∧ c'.error = c.error) ∨
          (c'.peer = .up ∧ c'.poked = false ∧ c'.error = false) := by
      intro fd f hf s c' hc'
      obtain ⟨c, hcm, rfl⟩ := List.mem_map.1 hc'
      refine Or.inl ⟨c, hcm, ?_⟩
      split_ifs
      · exact hf c
      · exact ⟨rfl, rfl, rfl, rfl⟩
    have refl : ∀ {s' : Sys}, s'.conns = ((Sys.start packet).acts zx l as).conns →
        ∀ c' ∈ s'.conns, (∃ c ∈ ((Sys.start packet).acts zx l as).conns,
          c'.fd = c.fd ∧ c'.peer = c.peer ∧ c'.poked = c.poked ∧ c'.error = c.error) ∨
          (c'.peer = .up ∧ c'.poked = false ∧ c'.error = false) := fun he c' hc' =>
      Or.inl ⟨c', he ▸ hc', rfl, rfl, rfl, rfl⟩
    have hw : ∀ fd, writesTo ((Sys.start packet).acts zx l as) fd ≤
        writesTo ((Sys.start packet).acts zx l (as ++ [a])) fd := fun fd => by
      rw [hone]; exact writesTo_act _ _ _ _ _
    cases a with
    | connect => exact keep hone (refl rfl) id
    | report data => exact keep hone (refl rfl) id
    | unplug => exact keep hone (refl rfl) id
    | send fd text =>
      exact keep hone (same fd _ (fun c => by split_ifs <;> exact ⟨rfl, rfl, rfl, rfl⟩) _) id
    | read fd n =>
      exact keep hone (same fd (fun c => { c with unread := c.unread - n }) (fun c => ⟨rfl, rfl, rfl, rfl⟩)
        ((Sys.start packet).acts zx l as)) id
    | close fd =>
      rw [hone] at hw ⊢
      refine ⟨fun c' hc' => ?_, hk'⟩
      obtain ⟨c, hcm, rfl⟩ := List.mem_map.1 hc'
      by_cases hf : c.fd = fd
      swap
      · rw [if_neg hf]
        exact connPast_mono _ (hc c hcm) rfl rfl rfl rfl
      rw [if_pos hf]
      by_cases hu : c.peer = .up
      swap
      · beta_reduce
        rw [if_neg hu]
        exact connPast_mono _ (hc c hcm) rfl rfl rfl rfl
      beta_reduce
      rw [if_pos hu]
      have h := hc c hcm
      unfold ConnPast at h ⊢
      rw [hu] at h
      exact ⟨h.2, as, _, [], rfl, Or.inl (by rw [hf]), ⟨c, hcm, rfl⟩, fun hp => absurd hp (by simp [h.1])⟩
    | reset fd =>
      rw [hone] at hw ⊢
      refine ⟨fun c' hc' => ?_, hk'⟩
      obtain ⟨c, hcm, rfl⟩ := List.mem_map.1 hc'
      by_cases hf : c.fd = fd
      swap
      · rw [if_neg hf]
        exact connPast_mono _ (hc c hcm) rfl rfl rfl rfl
      rw [if_pos hf]
      have h := hc c hcm
      unfold Conn.onReset
      cases hu : c.peer with
      | up =>
        unfold ConnPast at h ⊢
        exact ⟨as, _, [], rfl, Or.inr (by rw [hf]), ⟨c, hcm, rfl⟩, fun hp => absurd hp (by simp)⟩
      | closed =>
        simp only
        split_ifs with hpk
        · unfold ConnPast at h ⊢
          rw [hu] at h
          simp only at h ⊢
          rw [hpk] at h
          have := leftBefore_mono (a := .reset fd) h.2 (by rw [acts_one]; exact writesTo_act _ _ _ _ _)
          simpa [h.1] using this
        · exact connPast_mono _ h rfl rfl rfl rfl
      | reset => exact connPast_mono _ h rfl rfl rfl rfl
    | daemon stale =>
      have hone' : (Sys.start packet).acts zx l (as ++ [.daemon stale]) =
          ((((Sys.start packet).acts zx l as).daemon zx l stale).getD ((Sys.start packet).acts zx l as)) := hone
      clear hone
      generalize hs : (Sys.start packet).acts zx l as = s at *
      unfold Sys.daemon at hone'
      by_cases hst : s.stopped ≠ none
      · rw [if_pos hst] at hone'
        exact keep hone' (refl rfl) id
      rw [if_neg hst] at hone'
      have hst : s.stopped = none := not_not.1 hst
      split at hone'
      · exact keep hone' (refl rfl) id
      · rename_i text fd fds hwr
        unfold writeOne at hone'
        simp only at hone'
        obtain ⟨c, hcm, hcf⟩ := (hi.writing _ _ hwr).2 fd (by simp)
        have hcon : s.conn fd = some c := by rw [← hcf]; exact hi.conn_eq hcm
        rw [hcon] at hone'
        simp only at hone'
        have hcp := hc c hcm
        cases hu : c.peer with
        | up =>
          rw [hu] at hone'
          simp only at hone'
          split_ifs at hone'
          · exact keep hone' (same fd (fun c => { c with unread := c.unread + text.length }) (fun c => ⟨rfl, rfl, rfl, rfl⟩) { s with
              writing := some (text, fds), wrote := s.wrote ++ [(fd, text)] }) (fun h => h)
          · exact keep hone' (refl rfl) id
        | closed =>
          rw [hu] at hone'
          simp only at hone'
          split_ifs at hone'
          · rw [hone'] at hw ⊢
            refine ⟨fun c' hc' => ?_, hk'⟩
            obtain ⟨x, hxm, rfl⟩ := List.mem_map.1 hc'
            by_cases hf : x.fd = fd
            swap
            · rw [if_neg hf]
              exact connPast_mono _ (hc x hxm) rfl rfl rfl rfl
            rw [if_pos hf]
            have hxc : x = c := hi.unique hxm hcm (hf.trans hcf.symm)
            subst hxc
            unfold ConnPast at hcp ⊢
            rw [hu] at hcp ⊢
            simp only at hcp ⊢
            refine ⟨hcp.1, leftBefore_written hcp.2 (by rw [hs]; exact hmono _) ?_⟩
            rw [hs, hone']
            show writesTo s x.fd < ((s.wrote ++ [(fd, text)]).filter fun p => decide (p.1 = x.fd)).length
            rw [List.filter_append, List.length_append, hf]
            simp [writesTo]
          · exact keep hone' (refl rfl) id
        | reset =>
          rw [hu] at hone'
          simp only at hone'
          split_ifs at hone' with her
          · rw [hone'] at hw ⊢
            refine ⟨fun c' hc' => ?_, hk'⟩
            obtain ⟨x, hxm, rfl⟩ := List.mem_map.1 hc'
            by_cases hf : x.fd = fd
            swap
            · rw [if_neg hf]
              exact connPast_mono _ (hc x hxm) rfl rfl rfl rfl
            rw [if_pos hf]
            have hxc : x = c := hi.unique hxm hcm (hf.trans hcf.symm)
            subst hxc
            unfold ConnPast at hcp ⊢
            rw [hu] at hcp ⊢
            simp only at hcp ⊢
            refine leftBefore_written hcp (by rw [hs]; exact hmono _) ?_
            rw [hs, hone']
            show writesTo s x.fd < ((s.wrote ++ [(fd, text)]).filter fun p => decide (p.1 = x.fd)).length
            rw [List.filter_append, List.length_append, hf]
            simp [writesTo]
          · have her : c.error = false := by simpa using her
            unfold ConnPast at hcp
            rw [hu, her] at hcp
            have hl := leftBefore_mono (a := .daemon stale) hcp (by rw [acts_one]; exact writesTo_act _ _ _ _ _)
            rw [hone'] at hw ⊢
            refine ⟨fun c' hc' => connPast_mono _ (hc c' hc') rfl rfl rfl rfl, fun _ => ⟨_, hl⟩⟩
      · split at hone'
        · generalize (List.range fdSetSize).filter s.ready = z at hone'
          cases z <;> exact keep hone' (refl rfl) id
        · rename_i i rest ht
          simp only at hone'
          split_ifs at hone'
          · unfold acceptOne at hone'
            split at hone'
            · exact keep hone' (refl rfl) (fun h => nomatch h)
            · refine keep hone' (fun c' hc' => ?_) (fun h => h)
              rcases List.mem_cons.1 hc' with rfl | h
              · exact Or.inr ⟨rfl, rfl, rfl⟩
              · exact Or.inl ⟨c', h, rfl, rfl, rfl, rfl⟩
          · unfold reportOne at hone'
            split_ifs at hone'
            · exact keep hone' (refl rfl) (fun h => nomatch h)
            · split at hone' <;> exact keep hone' (refl rfl) (fun h => h)
          · unfold inputOne at hone'
            split at hone'
            · exact keep hone' (refl rfl) (fun h => h)
            · simp only at hone'
              split_ifs at hone'
              · exact keep hone' (refl rfl) (fun h => nomatch h)
              · exact keep hone' (same i (fun c => { c with input := c.input.drop (packetLen * 2 + 1) })
                  (fun c => ⟨rfl, rfl, rfl, rfl⟩) s) (fun h => h)
              · refine keep hone' (fun c' hc' => ?_) (fun h => h)
                exact Or.inl ⟨c', (List.mem_filter.1 hc').1, rfl, rfl, rfl, rfl⟩

/-- C74: the signal ends the process only if some client, whose connection the daemon had accepted, closed or reset it, and the
daemon has written a text to it since, without noticing. So no client ends the process by leaving before a single
report: at least one text must have been lost on a connection already ended. -/
theorem c74_killed (zx : Option Byte) {packet : List Byte} (hp : packet.length = packetLen) (l : Limits) {as : List Act}
    (h : ((Sys.start packet).acts zx l as).stopped = some .killed) :
    ∃ fd as1 a as2, as = as1 ++ a :: as2 ∧ (a = .close fd ∨ a = .reset fd) ∧
      (∃ c ∈ ((Sys.start packet).acts zx l as1).conns, c.fd = fd) ∧
      ∃ text, (fd, text) ∈ ((Sys.start packet).acts zx l as).wrote.drop ((Sys.start packet).acts zx l as1).wrote.length := by
  obtain ⟨fd, as1, a, as2, h1, h2, h3, h4⟩ := (killed_past zx hp l as).2 h
  refine ⟨fd, as1, a, as2, h1, h2, h3, ?_⟩
  have hpre : ∀ (bs : List Act) (s : Sys), s.wrote <+: (s.acts zx l bs).wrote := by
    intro bs
    induction bs with
    | nil => exact fun s => List.prefix_refl _
    | cons b bs ih => exact fun s => (wrote_grows zx l s b).trans (ih _)
  obtain ⟨t, ht⟩ := hpre (a :: as2) ((Sys.start packet).acts zx l as1)
  rw [← acts_append, ← h1] at ht
  have h4 := h4 rfl
  unfold writesTo at h4
  rw [← ht] at h4 ⊢
  rw [List.filter_append, List.length_append] at h4
  rw [List.drop_left]
  obtain ⟨p, hp⟩ := List.exists_mem_of_length_pos (l := t.filter fun p => decide (p.1 = fd)) (by omega)
  obtain ⟨hp1, hp2⟩ := List.mem_filter.1 hp
  exact ⟨p.2, by rw [← of_decide_eq_true hp2]; exact hp1⟩

/-- A client leaves while a report is handed out, the report is written to it, it resets the connection, and the next report ends the process. -/
example : ∃ fd as1 a as2, (exTwo ++ ([.report [1, 2], .daemon [], .daemon [], .close 5] ++ List.replicate 3 (.daemon []) ++ [.reset 5, .report [3]] ++
      List.replicate 3 (.daemon []))) = as1 ++ a :: as2 ∧ (a = .close fd ∨ a = .reset fd) ∧
    (∃ c ∈ ((Sys.start exPacket).acts none exLimits as1).conns, c.fd = fd) ∧ ∃ text, (fd, text) ∈
      ((Sys.start exPacket).acts none exLimits (exTwo ++ ([.report [1, 2], .daemon [], .daemon [], .close 5] ++ List.replicate 3 (.daemon []) ++
        [.reset 5, .report [3]] ++ List.replicate 3 (.daemon [])))).wrote.drop
          ((Sys.start exPacket).acts none exLimits as1).wrote.length :=
  c74_killed none rfl exLimits (by decide +kernel)

end Knx
