import Verif.Spec.DaemonMain
import Verif.Model.DaemonMain
import Mathlib.Data.List.Infix

/-! # The daemon's command line: C76 -/

namespace Knx
open Spec DaemonMain

theorem takeWhile_eqs {n : List Char} (h : '=' ∉ n) (v : List Char) :
    ((n ++ '=' :: v).takeWhile fun c => decide (c ≠ '=')) = n ∧ ((n ++ '=' :: v).dropWhile fun c => decide (c ≠ '=')) = '=' :: v := by
  induction n with
  | nil => simp
  | cons c n ih =>
    simp only [List.mem_cons, not_or] at h
    have hc : c ≠ '=' := fun he => h.1 he.symm
    simpa [hc] using ih h.2

theorem takeWhile_no {n : List Char} (h : '=' ∉ n) :
    (n.takeWhile fun c => decide (c ≠ '=')) = n ∧ (n.dropWhile fun c => decide (c ≠ '=')) = [] := by
  induction n with
  | nil => simp
  | cons c n ih =>
    simp only [List.mem_cons, not_or] at h
    have hc : c ≠ '=' := fun he => h.1 he.symm
    simpa [hc] using ih h.2

/-- A long option with a value behind an equals sign. -/
theorem getopt_joined {n : List Char} (h : '=' ∉ n) (v : List Char) {c : Char} (hm : longMatch n = some (true, c)) (rest : List Arg) :
    getopt ((['-', '-'] ++ n ++ ['='] ++ v) :: rest) = (c, some v) :: getopt rest := by
  obtain ⟨h1, h2⟩ := takeWhile_eqs h v
  have e : ['-', '-'] ++ n ++ ['='] ++ v = '-' :: '-' :: (n ++ '=' :: v) := by simp
  rw [e]
  have hne : n ++ '=' :: v ≠ [] := by simp
  obtain ⟨x, xs, hx⟩ := List.exists_cons_of_ne_nil hne
  rw [hx] at h1 h2 ⊢
  rw [getopt]
  · simp only [h1, h2, hm]
  · rintro h'
    cases h'

/-- A long option with its value in the next argument. -/
theorem getopt_apart {n : List Char} (h : '=' ∉ n) (hne : n ≠ []) (v : List Char) {c : Char} (hm : longMatch n = some (true, c))
    (rest : List Arg) : getopt ((['-', '-'] ++ n) :: v :: rest) = (c, some v) :: getopt rest := by
  obtain ⟨h1, h2⟩ := takeWhile_no h
  obtain ⟨x, xs, hx⟩ := List.exists_cons_of_ne_nil hne
  rw [hx] at h1 h2 hm ⊢
  rw [List.cons_append, List.cons_append, List.nil_append, getopt]
  · simp only [h1, h2, hm]
  · rintro h'
    cases h'

theorem getopt_flag {n : List Char} (h : '=' ∉ n) (hne : n ≠ []) {c : Char} (hm : longMatch n = some (false, c))
    (rest : List Arg) : getopt ((['-', '-'] ++ n) :: rest) = (c, none) :: getopt rest := by
  obtain ⟨h1, h2⟩ := takeWhile_no h
  obtain ⟨x, xs, hx⟩ := List.exists_cons_of_ne_nil hne
  rw [hx] at h1 h2 hm ⊢
  rw [List.cons_append, List.cons_append, List.nil_append, getopt]
  · simp only [h1, h2, hm]
  · rintro h'
    cases h'

/-- A long option that is not known or not clear. -/
theorem getopt_vague {n : List Char} (h : '=' ∉ n) (hne : n ≠ []) (hm : longMatch n = none) (rest : List Arg) :
    getopt ((['-', '-'] ++ n) :: rest) = ('?', none) :: getopt rest := by
  obtain ⟨h1, h2⟩ := takeWhile_no h
  obtain ⟨x, xs, hx⟩ := List.exists_cons_of_ne_nil hne
  rw [hx] at h1 h2 hm ⊢
  rw [List.cons_append, List.cons_append, List.nil_append, getopt]
  · simp only [h1, h2, hm]
  · rintro h'
    cases h'

/-- The same with a value, and help with one. -/
theorem getopt_vagueJoined {n : List Char} (h : '=' ∉ n) (v : List Char)
    (hm : longMatch n = none ∨ ∃ c, longMatch n = some (false, c)) (rest : List Arg) :
    getopt ((['-', '-'] ++ n ++ ['='] ++ v) :: rest) = ('?', none) :: getopt rest := by
  obtain ⟨h1, h2⟩ := takeWhile_eqs h v
  have e : ['-', '-'] ++ n ++ ['='] ++ v = '-' :: '-' :: (n ++ '=' :: v) := by simp
  rw [e]
  have hne : n ++ '=' :: v ≠ [] := by simp
  obtain ⟨x, xs, hx⟩ := List.exists_cons_of_ne_nil hne
  rw [hx] at h1 h2 ⊢
  rw [getopt]
  · rcases hm with hm | ⟨c, hm⟩ <;> simp only [h1, h2, hm]
  · rintro h'
    cases h'

theorem longMatch_vague {n : List Char} (h : Vague n) : longMatch n = none := by
  rcases h with h | h
  · rw [← List.mem_inits] at h
    revert n
    decide +kernel
  · have hp : ∀ o ∈ longOpts, ¬ n <+: o.1 := by
      intro o ho
      unfold longOpts at ho
      simp only [List.mem_cons, List.not_mem_nil, or_false] at ho
      rcases ho with rfl | rfl | rfl | rfl
      · exact h "help" (by simp)
      · exact h "host" (by simp)
      · exact h "port" (by simp)
      · exact h "dev-hidraw" (by simp)
    have h1 : (longOpts.find? fun o => decide (o.1 = n)) = none := by
      rw [List.find?_eq_none]
      intro o ho he
      rw [← of_decide_eq_true he] at hp
      exact hp o ho (List.prefix_refl _)
    have h2 : (longOpts.filter fun o => n.isPrefixOf o.1) = [] := by
      rw [List.filter_eq_nil_iff]
      exact fun o ho he => hp o ho (List.isPrefixOf_iff_prefix.1 he)
    unfold longMatch
    rw [h1, h2]

theorem getopt_word {w : List Char} (h : ¬ IsOption w) (rest : List Arg) : getopt (w :: rest) = getopt rest := by
  rcases w with _ | ⟨a, _ | ⟨b, t⟩⟩
  · simp [getopt]
  · simp [getopt]
  · have ha : a ≠ '-' := fun ha => h ⟨b, t, by rw [ha]⟩
    rw [getopt]
    all_goals simp_all

/-- The names and their abbreviations. -/
theorem names {name short : String} {c : Char} {b : Bool}
    (h : (name, short, b, c) ∈ [("dev-hidraw", "d", true, 'd'), ("port", "p", true, 'p'), ("host", "ho", true, 's'),
      ("help", "he", false, 'h')]) {n : List Char} (h1 : short.toList <+: n) (h2 : n <+: name.toList) :
    '=' ∉ n ∧ n ≠ [] ∧ longMatch n = some (b, c) := by
  rw [← List.mem_inits] at h2
  revert n
  revert h
  simp only [List.mem_cons, List.not_mem_nil, or_false, Prod.mk.injEq]
  rintro (⟨rfl, rfl, rfl, rfl⟩ | ⟨rfl, rfl, rfl, rfl⟩ | ⟨rfl, rfl, rfl, rfl⟩ | ⟨rfl, rfl, rfl, rfl⟩) n h1 h2 <;>
  · revert h1
    revert n
    decide +kernel

/-- What `getopt_long` returns for something said. -/
def returned : Said → List (Char × Option Arg)
  | .device v => [('d', some v)]
  | .port v => [('p', some v)]
  | .host v => [('s', some v)]
  | .help => [('h', none)]
  | .word _ => []
  | .vague _ => [('?', none)]
  | .letters cs => cs.map fun c => (if c ∈ shortOpts then c else '?', none)

theorem getopt_long {name short : String} {c : Char}
    (h : (name, short, true, c) ∈ [("dev-hidraw", "d", true, 'd'), ("port", "p", true, 'p'), ("host", "ho", true, 's'),
      ("help", "he", false, 'h')]) {v : List Char} {as : List Arg} (hf : LongForm name short v as) (rest : List Arg) :
    getopt (as ++ rest) = (c, some v) :: getopt rest := by
  rcases hf with ⟨n, h1, h2⟩ | ⟨n, h1, h2⟩
  · obtain ⟨a1, -, a3⟩ := names h h1 h2
    exact getopt_joined a1 v a3 rest
  · obtain ⟨a1, a2, a3⟩ := names h h1 h2
    exact getopt_apart a1 a2 v a3 rest

theorem getopt_form {x : Said} {as : List Arg} (hf : Form x as) (rest : List Arg) :
    getopt (as ++ rest) = returned x ++ getopt rest := by
  rcases hf with h | h | h | ⟨n, h1, h2⟩ | _ | h | ⟨n, h1, h2, h3⟩ | ⟨n, v, h1, h2⟩ | ⟨n, v, h1, h2⟩ | ⟨c, cs, h1, h2, h3⟩
  · exact getopt_long (c := 'd') (by simp) h rest
  · exact getopt_long (c := 'p') (by simp) h rest
  · exact getopt_long (c := 's') (by simp) h rest
  · obtain ⟨a1, a2, a3⟩ := names (c := 'h') (b := false) (by simp) h1 h2
    exact getopt_flag a1 a2 a3 rest
  · rfl
  · exact getopt_word h rest
  · exact getopt_vague h1 h2 (longMatch_vague h3) rest
  · exact getopt_vagueJoined h1 v (.inl (longMatch_vague h2)) rest
  · obtain ⟨a1, -, a3⟩ := names (c := 'h') (b := false) (by simp) h1 h2
    exact getopt_vagueJoined a1 v (.inr ⟨_, a3⟩) rest
  · show getopt (('-' :: c :: cs) :: rest) = _
    rw [getopt]
    · rfl
    · exact fun h' => absurd h' h1
    · exact fun h' => absurd h' h1

/-- The letters of a line are not those for help and for a device. -/
theorem line_letters {xs : List Said} {as : List Arg} (hl : Line xs as) :
    ∀ cs, Said.letters cs ∈ xs → 'h' ∉ cs ∧ 'd' ∉ cs := by
  induction hl with
  | nil => nofun
  | cons hf _ ih =>
    intro cs hcs
    rcases List.mem_cons.1 hcs with rfl | hcs
    · rcases hf with _ | _ | _ | _ | _ | _ | _ | _ | _ | ⟨c, cs, h1, h2, h3⟩
      exact ⟨h2, h3⟩
    · exact ih cs hcs

/-- Other letters change neither the device nor the wish for help. -/
theorem options_letters (cs : List Char) (hh : 'h' ∉ cs) (hd : 'd' ∉ cs) (device port host : Option Arg)
    (rest : List (Char × Option Arg)) : ∃ port' host',
    options device port host ((cs.map fun c => (if c ∈ shortOpts then c else '?', none)) ++ rest) =
      options device port' host' rest := by
  induction cs generalizing port host with
  | nil => exact ⟨port, host, rfl⟩
  | cons c cs ih =>
    simp only [List.mem_cons, not_or] at hh hd
    have key : ∀ x : Char, x ≠ 'h' → x ≠ 'd' → ∃ port' host',
        options device port host ((x, none) :: ((cs.map fun c => (if c ∈ shortOpts then c else '?', none)) ++ rest)) =
          options device port' host' rest := by
      intro x h1 h2
      rw [options, if_neg h1, if_neg h2]
      split_ifs
      · exact ih hh.2 hd.2 none host
      · exact ih hh.2 hd.2 port none
      · exact ih hh.2 hd.2 port host
    rw [List.map_cons, List.cons_append]
    split_ifs
    · exact key c (fun h => hh.1 h.symm) (fun h => hd.1 h.symm)
    · exact key '?' (by decide) (by decide)

theorem getopt_line {xs : List Said} {as : List Arg} (hl : Line xs as) (rest : List Arg) :
    getopt (as ++ rest) = xs.flatMap returned ++ getopt rest := by
  induction hl with
  | nil => rfl
  | cons hf _ ih =>
    rw [List.append_assoc, getopt_form hf, ih]
    simp

/-- The loop over the options of a line. -/
theorem options_line (xs : List Said) (hx : ∀ cs, Said.letters cs ∈ xs → 'h' ∉ cs ∧ 'd' ∉ cs) (device port host : Option Arg) (rest : List (Char × Option Arg)) :
    (Said.help ∈ xs → options device port host (xs.flatMap returned ++ rest) = none) ∧
    (Said.help ∉ xs → ∃ port' host', options device port host (xs.flatMap returned ++ rest) =
      options ((saidDevice xs).or device) port' host' rest) := by
  induction xs generalizing device port host with
  | nil => exact ⟨nofun, fun _ => ⟨port, host, rfl⟩⟩
  | cons x xs ih =>
    replace ih := ih fun cs hcs => hx cs (List.mem_cons_of_mem _ hcs)
    rcases x with v | v | v | _ | w | w | cs
    · obtain ⟨h1, h2⟩ := ih (some v) port host
      simp only [List.flatMap_cons, returned, List.cons_append, List.nil_append, options, saidDevice, List.mem_cons,
        reduceCtorEq, false_or, if_neg (show ¬ 'd' = 'h' by decide), if_true]
      refine ⟨h1, fun hn => ?_⟩
      obtain ⟨p', h', h3⟩ := h2 hn
      refine ⟨p', h', h3.trans ?_⟩
      cases saidDevice xs <;> rfl
    · obtain ⟨h1, h2⟩ := ih device (some v) host
      simpa [returned, options, saidDevice] using ⟨h1, h2⟩
    · obtain ⟨h1, h2⟩ := ih device port (some v)
      simpa [returned, options, saidDevice] using ⟨h1, h2⟩
    · simp [returned, options]
    · obtain ⟨h1, h2⟩ := ih device port host
      simpa [returned, saidDevice] using ⟨h1, h2⟩
    · obtain ⟨h1, h2⟩ := ih device port host
      simpa [returned, options, saidDevice] using ⟨h1, h2⟩
    · obtain ⟨hh, hd⟩ := hx cs (List.mem_cons_self ..)
      obtain ⟨p', h', he⟩ := options_letters cs hh hd device port host (xs.flatMap returned ++ rest)
      obtain ⟨h1, h2⟩ := ih device p' h'
      simp only [List.flatMap_cons, returned, List.append_assoc, he, saidDevice, List.mem_cons, reduceCtorEq, false_or]
      exact ⟨h1, h2⟩

/-! ## C76 -/

/-- C76, as far as it holds: with long options, abbreviated or not, and options without meaning, the daemon opens the device said last, or
`/dev/hidraw1`, if nobody asks for help; if it can open it, it serves at port 5555. Missing from the full claim: the port
and the host have no effect (`c76_port_refuted`), and the short option for the device does not work
(`c76_short_refuted`, `c76_joined_refuted`). -/
theorem c76_partial (canOpen : Arg → Bool) {xs : List Said} {as : List Arg} (hl : Line xs as) :
    DaemonMain.main canOpen as =
      if Said.help ∈ xs then .usage
      else if canOpen ((saidDevice xs).getD "/dev/hidraw1".toList) then
        .serves 5555 ((saidDevice xs).getD "/dev/hidraw1".toList)
      else .noDevice := by
  have h1 := getopt_line hl []
  simp only [List.append_nil, getopt] at h1
  have h2 := options_line xs (line_letters hl) (some defaultDevice) (some "8765".toList) (some "172.20.35.81".toList) []
  rw [List.append_nil] at h2
  unfold DaemonMain.main
  rw [h1, show ("/dev/hidraw1".toList : List Char) = defaultDevice from rfl]
  generalize defaultDevice = dd at h2 ⊢
  split_ifs with hh ho
  · rw [h2.1 hh]
  · obtain ⟨p', h', h3⟩ := h2.2 hh
    rw [h3]
    rcases hd : saidDevice xs with _ | d
    · rw [hd] at ho
      exact if_pos ho
    · rw [hd] at ho
      exact if_pos ho
  · obtain ⟨p', h', h3⟩ := h2.2 hh
    rw [h3]
    rcases hd : saidDevice xs with _ | d
    · rw [hd] at ho
      exact if_neg ho
    · rw [hd] at ho
      exact if_neg ho

/-- C76 does not hold of the port: on every command line the daemon serves at port 5555 or not at all. -/
theorem c76_port_refuted (canOpen : Arg → Bool) (as : List Arg) {port : Nat} {device : Arg}
    (h : DaemonMain.main canOpen as = .serves port device) : port = 5555 := by
  unfold DaemonMain.main at h
  split at h
  · cases h
  · cases h
  · split_ifs at h
    cases h
    rfl

/-- C76 does not hold of `-d`: on every command line that says the device last with `-d`, the daemon ends because it cannot
open the device, whatever is said before. -/
theorem c76_short_refuted (canOpen : Arg → Bool) {xs ys : List Said} {as bs : List Arg} (ha : Line xs as) (hb : Line ys bs)
    (hx : Said.help ∉ xs) (hy : Said.help ∉ ys) (hd : saidDevice ys = none) {v : Arg} (hv : ¬ IsOption v) :
    DaemonMain.main canOpen (as ++ [['-', 'd'], v] ++ bs) = .noDevice := by
  unfold DaemonMain.main
  have h1 : getopt (as ++ [['-', 'd'], v] ++ bs) = xs.flatMap returned ++ (('d', none) :: (ys.flatMap returned ++ [])) := by
    rw [List.append_assoc, getopt_line ha]
    congr 1
    have h2 : getopt (['-', 'd'] :: v :: bs) = ('d', none) :: getopt (v :: bs) := by
      rw [getopt]
      · rfl
      · rintro h
        cases h
      · exact fun h => absurd h (by decide)
    rw [List.cons_append, List.cons_append, List.nil_append, h2, getopt_word hv]
    have := getopt_line hb []
    rw [List.append_nil] at this
    rw [this]
    rfl
  rw [h1]
  obtain ⟨p', h', h3⟩ := (options_line xs (line_letters ha) (some defaultDevice) (some "8765".toList) (some "172.20.35.81".toList)
    (('d', none) :: (ys.flatMap returned ++ []))).2 hx
  rw [h3]
  simp only [options, if_neg (show ¬ 'd' = 'h' by decide), if_true]
  obtain ⟨p'', h'', h4⟩ := (options_line ys (line_letters hb) none p' h' []).2 hy
  rw [h4, hd]
  rfl

/-- With `-d` and the device in one argument, the daemon prints its usage if the name of the device contains an `h`, as
`/dev/hidraw2` does. -/
theorem c76_joined_refuted (canOpen : Arg → Bool) {xs : List Said} {as : List Arg} (ha : Line xs as) {v : Arg} (hv : 'h' ∈ v)
    (rest : List Arg) : DaemonMain.main canOpen (as ++ (['-', 'd'] ++ v) :: rest) = .usage := by
  have hmem : ∀ (l r : List (Char × Option Arg)) (a b c : Option Arg), ('h', none) ∈ l → options a b c (l ++ r) = none := by
    intro l r
    induction l with
    | nil => exact nofun
    | cons x l ih =>
      intro a b c hm
      obtain ⟨k, arg⟩ := x
      rw [List.cons_append, options]
      split_ifs with h1 h2 h3 h4
      · rfl
      all_goals
        refine ih _ _ _ ?_
        rcases List.mem_cons.1 hm with he | hm
        · exact absurd (congrArg Prod.fst he).symm h1
        · exact hm
  unfold DaemonMain.main
  rw [getopt_line ha]
  by_cases hh : Said.help ∈ xs
  · rw [(options_line xs (line_letters ha) ..).1 hh]
  · obtain ⟨p', h', h3⟩ := (options_line xs (line_letters ha) (some defaultDevice) (some "8765".toList) (some "172.20.35.81".toList)
      (getopt ((['-', 'd'] ++ v) :: rest))).2 hh
    rw [h3]
    have h2 : getopt ((['-', 'd'] ++ v) :: rest) =
        (('d' :: v).map fun c => (if c ∈ shortOpts then c else '?', none)) ++ getopt rest := by
      rw [List.cons_append, List.cons_append, List.nil_append, getopt]
      · rintro h
        cases h
      · exact fun h => absurd h (by decide)
    rw [h2, hmem]
    exact List.mem_map.2 ⟨'h', List.mem_cons_of_mem _ hv, by decide⟩

theorem not_isOption {w : List Char} (h : w.head? ≠ some '-') : ¬ IsOption w := by
  rintro ⟨c, t, rfl⟩
  exact h rfl

/-- A command line. -/
theorem exLine (v : List Char) : Line [.port ['1', '2'], .device v, .word ['x']]
    ([['-', '-'] ++ "port".toList ++ ['='] ++ ['1', '2']] ++ ([['-', '-'] ++ "dev".toList, v] ++ ([['x']] ++ []))) :=
  .cons (.port (.joined "port".toList (by decide +kernel) (by decide +kernel)))
    (.cons (.device (.apart "dev".toList (by decide +kernel) (by decide +kernel)))
      (.cons (.word (not_isOption (by decide))) .nil))

example := c76_partial (fun _ => true) (exLine ['/', 'd'])

example : DaemonMain.main (fun _ => true) ["--port=1234".toList, "--dev".toList, "/dev/hidraw2".toList, "x".toList] =
    .serves 5555 "/dev/hidraw2".toList := by decide +kernel

/-- Options that do not exist or are not clear say nothing. -/
example : DaemonMain.main (fun _ => true) (["--h".toList] ++ (["--verbose=2".toList] ++ (["-vp".toList] ++ []))) =
    .serves 5555 "/dev/hidraw1".toList :=
  c76_partial (fun _ => true) (xs := [.vague "h".toList, .vague "verbose".toList, .letters "vp".toList])
    (.cons (.vague "h".toList (by decide) (by decide) (.inl (List.prefix_refl _)))
      (.cons (.vagueJoined "verbose".toList "2".toList (by decide +kernel) (.inr (by decide +kernel)))
        (.cons (.letters 'v' ['p'] (by decide) (by decide) (by decide)) .nil)))

example := c76_port_refuted (fun _ => true) ["--port=1234".toList] (port := 5555) (device := "/dev/hidraw1".toList)
  (by decide +kernel)

example := c76_short_refuted (fun _ => true) (exLine ['/', 'd']) .nil (by decide) (by decide) rfl (v := ['/', 'e'])
  (not_isOption (by decide))

example : DaemonMain.main (fun _ => true) ["-d".toList, "/dev/hidraw3".toList] = .noDevice := by decide +kernel

example := c76_joined_refuted (fun _ => true) (exLine ['/', 'd']) (v := ['/', 'h', '1']) (by decide) []

example : DaemonMain.main (fun _ => true) ["-d/dev/hidraw2".toList] = .usage := by decide +kernel

end Knx
